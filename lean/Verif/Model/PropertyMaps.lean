import Verif.Model.Properties
/-!
# Property maps as references

A Go map is a reference: routes, tracks and variables of the program can refer to the same map. Elsewhere in the model a
route holds the contents of its map. Here maps have an address, and the fields `props` of routes and tracks and the
variables of type `properties.Properties` hold an address or nil.

Simplifications: routes and tracks are only their field `props`; a variable is given by its number, and one that does not
exist is nil.
-/

namespace GpsGen

variable {F : Type}

/-- The maps by address, the field `props` of every route and track (navigator/route.go:20, navigator/route_track.go:20),
the variables of the program. -/
structure PropStore (F : Type) where
  maps : List (PMap F) := []
  objs : List (Option Nat) := []
  vars : List (Option Nat) := []

/-- Statements about properties. -/
inductive PropOp (F : Type) where
  /-- `NewRoute`, `NewTrack` and the like: the field is nil. -/
  | new
  /-- `RestoreRoute(id, color, x)`. -/
  | restored (x : Nat)
  /-- A route or track from a snapshot; nil without properties and for the text `null`. -/
  | decoded (m : Option (PMap F))
  /-- `v := o.Props()`. -/
  | props (o : Nat)
  /-- `v := properties.Make()`. -/
  | make
  /-- `var v properties.Properties`. -/
  | declare
  /-- `v := x`. -/
  | copy (x : Nat)
  /-- `x.Set(k, v)`. -/
  | set (x : Nat) (k : String) (v : PVal F)
  /-- `x.Remove(k)`. -/
  | remove (x : Nat) (k : String)
  /-- `x.Merge(y)`. -/
  | merge (x y : Nat)
  /-- `x.Reset()`. -/
  | reset (x : Nat)

namespace PropStore

/-- A variable. -/
def var (s : PropStore F) (x : Nat) : Option Nat := (s.vars[x]?).join

/-- The field `props` of a route or track. -/
def obj (s : PropStore F) (o : Nat) : Option Nat := (s.objs[o]?).join

/-- The contents of a map; nil reads like an empty map. -/
def content (s : PropStore F) : Option Nat → PMap F
  | none => []
  | some r => s.maps[r]?.getD []

/-- Writes a map: a nil map panics (any panic of this kind is `nilDeref` here). -/
def write (s : PropStore F) (r : Option Nat) (f : PMap F → PMap F) : Go (PropStore F) :=
  match r with
  | none => .error .nilDeref
  | some r => .ok { s with maps := s.maps.modify r f }

/-- One statement. -/
def step (s : PropStore F) : PropOp F → Go (PropStore F)
  -- navigator/route.go:28-34 `NewRoute`, navigator/route_track.go:30-60 `NewTrack`, `RestoreTrack`
  | .new => .ok { s with objs := s.objs ++ [none] }
  -- navigator/route.go:37-48 `RestoreRoute`: the map is not copied
  | .restored x => .ok { s with objs := s.objs ++ [s.var x] }
  -- navigator/route.go:209-229 `RouteFromSnapshot`, navigator/route_track.go:160-168 `TrackFromSnapshot`
  | .decoded none => .ok { s with objs := s.objs ++ [none] }
  | .decoded (some m) => .ok { s with maps := s.maps ++ [m], objs := s.objs ++ [some s.maps.length] }
  -- navigator/route.go:101-106 and navigator/route_track.go:110-115 `Props`
  | .props o => match s.objs[o]? with
    | none => .error .nilDeref
    | some none => .ok { maps := s.maps ++ [PMap.make], objs := s.objs.set o (some s.maps.length),
                         vars := s.vars ++ [some s.maps.length] }
    | some (some r) => .ok { s with vars := s.vars ++ [some r] }
  -- properties/properties.go:7-9 `Make`
  | .make => .ok { s with maps := s.maps ++ [PMap.make], vars := s.vars ++ [some s.maps.length] }
  | .declare => .ok { s with vars := s.vars ++ [none] }
  | .copy x => .ok { s with vars := s.vars ++ [s.var x] }
  -- properties/properties.go:60-63 `Set`
  | .set x k v => s.write (s.var x) (·.set k v)
  -- properties/properties.go:66-68 `Remove`: `delete` of a nil map does nothing
  | .remove x k => match s.var x with
    | none => .ok s
    | some r => .ok { s with maps := s.maps.modify r (·.remove k) }
  -- properties/properties.go:12-16 `Merge`: nothing is written if the other map is empty
  | .merge x y => match s.content (s.var y) with
    | [] => .ok s
    | m => s.write (s.var x) (·.merge m)
  -- properties/properties.go:71-73 `Reset`: the variable gets a new map
  | .reset x => .ok { s with maps := s.maps ++ [PMap.make], vars := s.vars.set x (some s.maps.length) }

/-- Several statements. -/
def run (s : PropStore F) : List (PropOp F) → Go (PropStore F)
  | [] => .ok s
  | op :: ops => s.step op >>= fun s => s.run ops

end PropStore
end GpsGen
