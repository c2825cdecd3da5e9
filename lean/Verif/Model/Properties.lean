import Verif.Model.Num
/-!
# Package properties
-/

namespace GpsGen

/-- Values stored in a `Properties` map (properties/properties.go:4, `map[string]interface{}`).
Simplification: nested maps and arrays are not modelled; `other` stands for a Go value that
`json.Marshal` rejects (channel, function, NaN). -/
inductive PVal (F : Type) where
  | null
  | str (s : String)
  | bool (b : Bool)
  | int (i : Int)
  | int32 (i : Int)
  | int64 (i : Int)
  | float (f : F)
  | other (n : Nat)
  deriving DecidableEq, Repr, Inhabited

/-- A Go map with string keys. The list order stands for the (unspecified) iteration order; keys
are unique in every map produced by the operations below. -/
abbrev PMap (F : Type) := List (String × PVal F)

variable {F : Type}

namespace PMap

/-- Go map read `p[k]` with presence flag. -/
def get? (m : PMap F) (k : String) : Option (PVal F) := (m.find? (fun e => e.1 == k)).map (·.2)

/-- properties/properties.go:60-63 `Set`: `p[key] = value`. -/
def set (m : PMap F) (k : String) (v : PVal F) : PMap F :=
  if m.any (fun e => e.1 == k) then m.map (fun e => if e.1 == k then (k, v) else e)
  else m ++ [(k, v)]

/-- properties/properties.go:66-68 `Remove`: `delete(p, key)`. -/
def remove (m : PMap F) (k : String) : PMap F := m.filter (fun e => !(e.1 == k))

/-- properties/properties.go:12-16 `Merge`: `for k, v := range other { p[k] = v }`. -/
def merge (m other : PMap F) : PMap F := other.foldl (fun acc e => acc.set e.1 e.2) m

/-- properties/properties.go:7-9 `Make` and 71-73 `Reset`. -/
def make : PMap F := []

/-- properties/properties.go:19-25 `String`. -/
def getString (m : PMap F) (k : String) : String × Bool :=
  match m.get? k with
  | some (.str s) => (s, true)
  | _ => ("", false)

/-- properties/properties.go:28-34 `Bool`. -/
def getBool (m : PMap F) (k : String) : Bool × Bool :=
  match m.get? k with
  | some (.bool b) => (b, true)
  | _ => (false, false)

/-- properties/properties.go:37-48 `Int`. -/
def getInt (m : PMap F) (k : String) : Int × Bool :=
  match m.get? k with
  | some (.int i) => (i, true)
  | some (.int32 i) => (i, true)
  | some (.int64 i) => (i, true)
  | _ => (0, false)

/-- properties/properties.go:51-57 `Float64`. -/
def getFloat [GoFloat F] (m : PMap F) (k : String) : F × Bool :=
  match m.get? k with
  | some (.float f) => (f, true)
  | _ => (lit 0, false)

end PMap

/-! ## JSON

`json.Marshal` of a property map and `json.Unmarshal` into one (encoding/json). The JSON text is
modelled by its syntax tree; `Model/JsonText.lean` models the text itself. -/

/-- JSON scalar values; integers and floats are both JSON numbers. -/
inductive JVal (F : Type) where
  | null
  | str (s : String)
  | bool (b : Bool)
  | num (f : F)
  deriving DecidableEq, Repr

/-- A JSON object. -/
abbrev JObj (F : Type) := List (String × JVal F)

variable [GoFloat F]

/-- `json.Marshal` of one value; `none` = unsupported type. An integer is printed in decimal and
read back as the nearest `float64`, which is `lit i`. -/
def PVal.toJson : PVal F → Option (JVal F)
  | .null => some .null
  | .str s => some (.str s)
  | .bool b => some (.bool b)
  | .int i => some (.num (lit i))
  | .int32 i => some (.num (lit i))
  | .int64 i => some (.num (lit i))
  | .float f => some (.num f)
  | .other _ => none

/-- `json.Unmarshal` of one value into `interface{}`: every number becomes a `float64`. -/
def JVal.toPVal : JVal F → PVal F
  | .null => .null
  | .str s => .str s
  | .bool b => .bool b
  | .num f => .float f

/-- `json.Marshal(props)`; any unsupported value makes the whole call fail. Callers discard the
error and keep a nil byte slice (`rawProps, _ = json.Marshal(...)`). -/
def PMap.marshal (m : PMap F) : Option (JObj F) :=
  m.mapM (fun e => e.2.toJson.map (fun j => (e.1, j)))

/-- `json.Unmarshal(data, &props)` on the syntax tree of an object, into a fresh map: the last of
several equal keys wins. -/
def JObj.unmarshal (o : JObj F) : PMap F :=
  o.foldl (fun m e => m.set e.1 e.2.toPVal) PMap.make

end GpsGen
