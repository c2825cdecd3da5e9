import Verif.Model.PacketBytes
/-!
# `Navigator.Update` on messages of the caller

`Update` writes into any `proto.Device` message. The sub-messages of the message may be absent, and what was written before a
panic stays written.

Simplification: the two `DMS` messages are distinct objects.
-/

namespace GpsGen
variable {F : Type}

/-- Statements in order. The second component is the panic that ended them; the first is what they left behind. -/
def runSteps {α : Type} : List (α → Go α) → α → α × Option Panic
  | [], m => (m, none)
  | s :: ss, m => match s m with
    | .ok m' => runSteps ss m'
    | .error p => (m, some p)

/-- Assignments to fields of `state.Distance`. -/
def onDistance (f : DistancePb F → Go (DistancePb F)) (m : DevicePb F) : Go (DevicePb F) :=
  match m.distance with
  | none => .error .nilDeref
  | some d => (f d).map fun d => { m with distance := some d }

/-- Assignments to fields of `state.Navigator`. -/
def onNavigator (f : NavigatorPb → Go NavigatorPb) (m : DevicePb F) : Go (DevicePb F) :=
  match m.navigator with
  | none => .error .nilDeref
  | some d => (f d).map fun d => { m with navigator := some d }

/-- Assignments to fields of `state.Location`. -/
def onLocation (f : LocationPb F → Go (LocationPb F)) (m : DevicePb F) : Go (DevicePb F) :=
  match m.location with
  | none => .error .nilDeref
  | some d => (f d).map fun d => { m with location := some d }

/-- Assignments to fields of `state.Location.Utm`. -/
def onUtm (u : UtmPb F) : DevicePb F → Go (DevicePb F) := onLocation fun l =>
  match l.utm with
  | none => .error .nilDeref
  | some _ => .ok { l with utm := some u }

/-- Assignments to fields of `state.Location.LatDms`. -/
def onLatDms (u : DmsPb F) : DevicePb F → Go (DevicePb F) := onLocation fun l =>
  match l.latDms with
  | none => .error .nilDeref
  | some _ => .ok { l with latDms := some u }

/-- Assignments to fields of `state.Location.LonDms`. -/
def onLonDms (u : DmsPb F) : DevicePb F → Go (DevicePb F) := onLocation fun l =>
  match l.lonDms with
  | none => .error .nilDeref
  | some _ => .ok { l with lonDms := some u }

/-- navigator/navigator.go:804-818 `normalizeDeviceState`. -/
def normalizeMsg [GoFloat F] (m : DevicePb F) : DevicePb F :=
  { m with
    distance := some (m.distance.getD ⟨lit 0, lit 0, lit 0, lit 0, lit 0, lit 0, lit 0, lit 0⟩)
    navigator := some (m.navigator.getD ⟨0, 0, 0, "", ""⟩)
    location := some (m.location.getD ⟨lit 0, lit 0, lit 0, lit 0, some ⟨0, 0, lit 0, ""⟩, some ⟨0, 0, lit 0, ""⟩,
      some ⟨lit 0, lit 0, lit 0, 0, "", "", 0⟩⟩) }

/-- navigator/navigator.go:338-366: the statements of `Update`; navigator/location.go:35-43, 52-58 for the last three. -/
def Navigator.updateSteps [GoMath F] [UtmLib F] (n : Navigator F) : List (DevicePb F → Go (DevicePb F)) := [
  onDistance fun d => .ok { d with distance := n.distance },
  onDistance fun d => .ok { d with currentDistance := n.currentDistance },
  onDistance fun d => do let x ← n.routeDistance; return { d with routeDistance := x },
  onDistance fun d => .ok { d with currentRouteDistance := n.currentRouteDistance },
  onDistance fun d => do let x ← n.trackDistance; return { d with trackDistance := x },
  onDistance fun d => .ok { d with currentTrackDistance := n.currentTrackDistance },
  onDistance fun d => do let x ← n.segmentDistance; return { d with segmentDistance := x },
  onDistance fun d => .ok { d with currentSegmentDistance := n.currentSegmentDistance },
  onNavigator fun d => .ok { d with currentRouteIndex := n.routeIndex },
  onNavigator fun d => .ok { d with currentTrackIndex := n.trackIndex },
  onNavigator fun d => .ok { d with currentSegmentIndex := n.segmentIndex },
  onNavigator fun d => do
    let r ← n.currentRoute
    return match r with | some r => { d with currentRouteId := r.id } | none => d,
  onNavigator fun d => do
    let t ← n.currentTrack
    return match t with | some t => { d with currentTrackId := t.id } | none => d,
  onLocation fun l => do let x ← n.currentBearing; return { l with bearing := x },
  onLocation fun l => .ok { l with elevation := n.elevation.valY },
  onLocation fun l => .ok { l with lat := n.point.lat },
  onLocation fun l => .ok { l with lon := n.point.lon },
  fun m => .ok { m with isOffline := decide (n.offlineIndex > 0) },
  fun m => .ok { m with offlineDuration := n.offlineIndex },
  onUtm (setUTM n.point.lat n.point.lon),
  onLatDms (toDMS "N" "S" n.point.lat).pb,
  onLonDms (toDMS "E" "W" n.point.lon).pb]

/-- navigator/navigator.go:335-367 `Update` of a message of the caller; `none` is a nil pointer. -/
def Navigator.updateMsg [GoMath F] [UtmLib F] (n : Navigator F) : Option (DevicePb F) → Option (DevicePb F) × Option Panic
  | none => (none, some .nilDeref)
  | some m => let r := runSteps n.updateSteps (normalizeMsg m); (some r.1, r.2)

end GpsGen
