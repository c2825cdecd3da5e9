import Verif.Model.NavHistory
/-!
# Routes and tracks held by pointer

`AddRoute` and `AddTrack` store the pointers they are given, so one route may be held by several navigators and one
track by several routes. Here tracks, routes and navigators live in a memory and hold addresses. The other model files
store values; `Theorems/C77.lean` relates the two.

Simplifications: a property map belongs to one object; `RouteFromSnapshot` and `TrackFromSnapshot`, which overwrite an
object including its id, are applied only to objects that nobody holds yet, as in the code itself.
-/

namespace GpsGen

variable {F : Type}

/-- navigator/route.go:14-22 `Route`: the fields, and the addresses of the tracks. The field `tracks` of `body` is not
used. -/
structure RouteObj (F : Type) where
  body : Route F
  refs : List Nat

/-- navigator/navigator.go:12-28 `Navigator`: the fields, and the addresses of the routes. The field `routes` of `body`
is not used. -/
structure NavObj (F : Type) where
  body : Navigator F
  refs : List Nat

/-- The objects by address. -/
structure Memory (F : Type) where
  tracks : Nat → Track F
  routes : Nat → RouteObj F
  navs : Nat → NavObj F

/-- Overwrite one cell. -/
def cellSet {α : Type} (f : Nat → α) (p : Nat) (v : α) : Nat → α := fun q => if q = p then v else f q

/-- The route at an address, with its tracks. -/
def Memory.routeView (m : Memory F) (p : Nat) : Route F :=
  { (m.routes p).body with tracks := (m.routes p).refs.map m.tracks }

/-- The navigator at an address, with its routes and their tracks. -/
def Memory.view (m : Memory F) (a : Nat) : Navigator F :=
  { (m.navs a).body with routes := (m.navs a).refs.map m.routeView }

/-- Changes of a route that do not concern its tracks: `ChangeColor`, `ChangeName`, writing to `Props()`, and
`TrackByID`, which changes the version (navigator/route.go:70-106, 143-154). -/
inductive RouteEdit (F : Type) where
  | changeColor (parsed : Option String)
  | changeName (name : String)
  | setProps (m : PMap F)
  | trackByID (id : String)

/-- A step of a program: a call of a navigator, a route or a track. -/
inductive MemOp (F : Type) where
  /-- `AddRoute` of the navigator `a`; `none` is nil. -/
  | addRoute (a : Nat) (ps : List (Option Nat))
  | removeRoute (a : Nat) (id : String)
  | removeTrack (a : Nat) (rid tid : String)
  | resetRoutes (a : Nat)
  /-- Any other method of the navigator `a`. -/
  | drive (a : Nat) (op : NavOp F)
  /-- `AddTrack` of the route `p`; `none` is nil. -/
  | addTrack (p : Nat) (q : Option Nat)
  /-- `RemoveTrack` of the route `p`. -/
  | dropTrack (p : Nat) (id : String)
  | editRoute (p : Nat) (e : RouteEdit F)
  | editTrack (q : Nat) (op : TrackOp F)

/-- The methods of a navigator that only read its routes. -/
def NavOp.reads : NavOp F → Bool
  | .addRoute .. | .removeRoute .. | .removeTrack .. | .resetRoutes | .onRoute .. => false
  | _ => true

namespace RouteObj

variable [GoFloat F]

/-- navigator/route.go:235-240 `updateState` after the list of tracks has been replaced, and 251-253 `nextVersion`. -/
def withTracks (ts : Nat → Track F) (r : RouteObj F) (refs : List Nat) : RouteObj F :=
  ⟨{ r.body with dist := refs.foldl (fun d q => d +. (ts q).dist) (lit 0), version := r.body.version + 1 }, refs⟩

/-- navigator/route.go:166-176 `AddTrack`. -/
def addTrack (ts : Nat → Track F) (r : RouteObj F) : Option Nat → RouteObj F
  | none => r
  | some q => r.withTracks ts (r.refs ++ [q])

/-- navigator/route.go:122-140 `RemoveTrack`. -/
def removeTrack (ts : Nat → Track F) (r : RouteObj F) (id : String) : RouteObj F × Bool :=
  if goLen id = 0 ∨ goLen id > 36 then (r, false) else
  let (refs, ok) := removeFirst (fun q => (ts q).id == id) r.refs
  if ok then (r.withTracks ts refs, true) else (r, false)

omit [GoFloat F] in
/-- navigator/route.go:70-106, 143-154. -/
def edit (ts : Nat → Track F) (r : RouteObj F) : RouteEdit F → RouteObj F
  | .changeColor c => ⟨(r.body.changeColor c).1, r.refs⟩
  | .changeName s => ⟨(r.body.changeName s).1, r.refs⟩
  | .setProps m => ⟨{ r.body with props := some m }, r.refs⟩
  | .trackByID id =>
    if goLen id = 0 ∨ goLen id > 36 then r else
    match r.refs.find? (fun q => (ts q).id == id) with
    | some _ => ⟨{ r.body with version := r.body.version + 1 }, r.refs⟩
    | none => r

end RouteObj

namespace Memory

/-- The loop of `AddRoute` (navigator/navigator.go:84-90) on addresses. -/
def addLoop (m : Memory F) : List Nat → Nat → List (Option Nat) → List Nat × Nat
  | held, k, [] => (held, k)
  | held, k, none :: ps => m.addLoop held k ps
  | held, k, some p :: ps =>
    if held.any (fun q => (m.routes p).body.id == (m.routes q).body.id) then m.addLoop held k ps
    else m.addLoop (held ++ [p]) (k + 1) ps

variable [GoMath F]

/-- navigator/navigator.go:687-690 `Reset` after the routes have been replaced. -/
def resetTo (m : Memory F) (n : NavObj F) (refs : List Nat) : NavObj F :=
  ⟨{ n.body.resetIndexes with distance := refs.foldl (fun d p => d +. (m.routes p).body.dist) (lit 0)
                              version := n.body.version + 1 }, refs⟩

/-- One step of a program; the result is forgotten. -/
def step (m : Memory F) : MemOp F → Go (Memory F)
  -- navigator/navigator.go:79-96
  | .addRoute a ps =>
    if ps.length = 0 then .ok m else
    let (held, k) := m.addLoop (m.navs a).refs 0 ps
    if k > 0 then .ok { m with navs := cellSet m.navs a (m.resetTo (m.navs a) held) } else .ok m
  -- navigator/navigator.go:149-165
  | .removeRoute a id =>
    if goLen id = 0 ∨ goLen id > 36 then .ok m else
    let (refs, ok) := removeFirst (fun p => (m.routes p).body.id == id) (m.navs a).refs
    if ok then .ok { m with navs := cellSet m.navs a (m.resetTo (m.navs a) refs) } else .ok m
  -- navigator/navigator.go:168-184 and 124-134 `RouteByID`
  | .removeTrack a rid tid =>
    if goLen rid = 0 ∨ goLen rid > 36 ∨ goLen tid = 0 ∨ goLen tid > 36 then .ok m else
    match (m.navs a).refs.find? (fun p => (m.routes p).body.id == rid) with
    | none => .ok m
    | some p =>
      let (r, ok) := (m.routes p).removeTrack m.tracks tid
      if ok then .ok { m with routes := cellSet m.routes p r
                              navs := cellSet m.navs a ⟨(m.navs a).body.nextVersion, (m.navs a).refs⟩ }
      else .ok m
  -- navigator/navigator.go:113-121
  | .resetRoutes a =>
    if (m.navs a).refs.length = 0 then .ok m else .ok { m with navs := cellSet m.navs a (m.resetTo (m.navs a) []) }
  -- the methods that read the routes and write the fields of the navigator
  | .drive a op =>
    if op.reads then (m.view a).step op >>= fun n => .ok { m with navs := cellSet m.navs a ⟨n, (m.navs a).refs⟩ }
    else .ok m
  | .addTrack p q => .ok { m with routes := cellSet m.routes p ((m.routes p).addTrack m.tracks q) }
  | .dropTrack p id => .ok { m with routes := cellSet m.routes p ((m.routes p).removeTrack m.tracks id).1 }
  | .editRoute p e => .ok { m with routes := cellSet m.routes p ((m.routes p).edit m.tracks e) }
  | .editTrack q op => .ok { m with tracks := cellSet m.tracks q ((m.tracks q).apply op) }

/-- A program. -/
def run (m : Memory F) : List (MemOp F) → Go (Memory F)
  | [] => .ok m
  | op :: ops => m.step op >>= fun m' => m'.run ops

end Memory
end GpsGen
