import Verif.Model.Navigator
/-!
# Client histories

A client drives a navigator through its public methods and may also mutate routes and tracks it
added earlier, because `AddRoute` stores the caller's pointers. `NavOp` lists these actions and
`run` executes a finite history.

Here a route object is held by at most one navigator and a track object by at most one
route, so that mutation through a retained pointer is "mutate track `j` of route `i`". Objects held by several are
modelled in `Shared.lean`; C77 shows that they give no further histories.
-/

namespace GpsGen

variable {F : Type}

/-- Public mutators of a track (navigator/route_track.go:83-115). `setProps` stands for any change
made through the map returned by `Props()`. -/
inductive TrackOp (F : Type) where
  | changeColor (parsed : Option String)
  | changeName (name : String)
  | setProps (m : PMap F)

/-- Effect of a track mutator. -/
def Track.apply (t : Track F) : TrackOp F → Track F
  | .changeColor c => (t.changeColor c).1
  | .changeName s => (t.changeName s).1
  | .setProps m => { t with props := some m }

/-- Public mutators of a route (navigator/route.go). -/
inductive RouteOp (F : Type) where
  | addTrack (t : Option (Track F))
  | removeTrack (id : String)
  | trackByID (id : String)
  | changeColor (parsed : Option String)
  | changeName (name : String)
  | setProps (m : PMap F)
  | onTrack (i : Nat) (op : TrackOp F)

/-- Effect of a route mutator. -/
def Route.apply [GoFloat F] (r : Route F) : RouteOp F → Route F
  | .addTrack t => r.addTrack t
  | .removeTrack id => (r.removeTrack id).1
  | .trackByID id => (r.trackByID id).1
  | .changeColor c => (r.changeColor c).1
  | .changeName s => (r.changeName s).1
  | .setProps m => { r with props := some m }
  | .onTrack i op => { r with tracks := r.tracks.modify i (fun t => t.apply op) }

/-- Public operations on a navigator. -/
inductive NavOp (F : Type) where
  | addRoute (rs : List (Option (Route F)))
  | removeRoute (id : String)
  | removeTrack (rid tid : String)
  | resetRoutes
  | reset
  | moveToSegment (r t s : Int)
  | moveToRoute (r : Int)
  | moveToTrack (r t : Int)
  | moveToRouteByID (rid : String)
  | moveToTrackByID (rid tid : String)
  | toNextRoute
  | toPrevRoute
  | destinationTo (meters : F)
  | toOffline (x : UInt32)
  | nextLocation (tick speed : F) (x : UInt32)
  | isFinish
  | nextElevation (t : F)
  | shuffleElevation (draws : Nat → F)
  | onRoute (i : Nat) (op : RouteOp F)

/-- Execute one operation, forgetting its result. -/
def Navigator.step [GoMath F] (n : Navigator F) : NavOp F → Go (Navigator F)
  | .addRoute rs => .ok (n.addRoute rs).1
  | .removeRoute id => .ok (n.removeRoute id).1
  | .removeTrack rid tid => .ok (n.removeTrack rid tid).1
  | .resetRoutes => .ok n.resetRoutes.1
  | .reset => .ok n.reset
  | .moveToSegment r t s => (n.moveToSegment r t s).map (·.1)
  | .moveToRoute r => (n.moveToRoute r).map (·.1)
  | .moveToTrack r t => (n.moveToTrack r t).map (·.1)
  | .moveToRouteByID rid => (n.moveToRouteByID rid).map (·.1)
  | .moveToTrackByID rid tid => (n.moveToTrackByID rid tid).map (·.1)
  | .toNextRoute => n.toNextRoute.map (·.1)
  | .toPrevRoute => n.toPrevRoute.map (·.1)
  | .destinationTo m => .ok (n.destinationTo m).1
  | .toOffline x => n.toOffline x
  | .nextLocation tick speed x => (n.nextLocation tick speed x).map (·.1)
  | .isFinish => .ok n.isFinish.1
  | .nextElevation t => n.nextElevation t
  | .shuffleElevation draws => .ok (n.shuffleElevation draws)
  | .onRoute i op => .ok { n with routes := n.routes.modify i (fun r => r.apply op) }

/-- Execute a history. -/
def Navigator.run [GoMath F] (n : Navigator F) : List (NavOp F) → Go (Navigator F)
  | [] => .ok n
  | op :: ops => n.step op >>= fun n' => n'.run ops

/-- Execute a history on a route. -/
def Route.run [GoFloat F] (r : Route F) (ops : List (RouteOp F)) : Route F := ops.foldl Route.apply r

end GpsGen
