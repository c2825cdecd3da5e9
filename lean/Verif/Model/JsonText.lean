import Verif.Model.Wire
/-!
# The JSON text of properties

`json.Marshal` of a property map and `json.Unmarshal` into one, as text. The package encoding/json belongs to Go, not to
the repository; it is modelled from its documentation and RFC 8259: keys are sorted, quotes, backslashes, control
characters, `<`, `>`, `&`, U+2028 and U+2029 are escaped, integers are written in decimal, NaN and infinities are
refused.

Simplifications: text is UTF-8 (`json.Marshal` replaces invalid bytes of strings, which the model does not have;
documents with invalid bytes are refused here, replaced by Go); documents with nested arrays or objects are refused, as
the model's property values are scalars; the shortest decimal that strconv finds for a float is not computed, see
`JsonFloat`.
-/

namespace GpsGen

variable {F : Type}

/-! ## Numbers -/

/-- A JSON number: sign, integer part, digits after the point, exponent. -/
structure NumLit where
  neg : Bool
  int : Nat
  frac : List (Fin 10)
  exp : Option Int
  deriving DecidableEq

/-- A digit as a character. -/
def digitChar (d : Fin 10) : Char :=
  match d with
  | 0 => '0' | 1 => '1' | 2 => '2' | 3 => '3' | 4 => '4' | 5 => '5' | 6 => '6' | 7 => '7' | 8 => '8' | 9 => '9'

/-- The digit a character stands for. -/
def charDigit (c : Char) : Option (Fin 10) :=
  match c with
  | '0' => some 0 | '1' => some 1 | '2' => some 2 | '3' => some 3 | '4' => some 4
  | '5' => some 5 | '6' => some 6 | '7' => some 7 | '8' => some 8 | '9' => some 9
  | _ => none

/-- Decimal digits. -/
def natDigits (n : Nat) : List (Fin 10) :=
  if n < 10 then [Fin.ofNat 10 n] else natDigits (n / 10) ++ [Fin.ofNat 10 n]

/-- The number with these digits. -/
def digitsNat (ds : List (Fin 10)) : Nat := ds.foldl (fun n d => 10 * n + d.val) 0

/-- A natural number in decimal. -/
def natText (n : Nat) : List Char := (natDigits n).map digitChar

/-- The text of an exponent. -/
def expText : Option Int → List Char
  | none => []
  | some e => 'e' :: (if e < 0 then '-' else '+') :: natText e.natAbs

/-- The text of a fraction. -/
def fracText (ds : List (Fin 10)) : List Char := if ds = [] then [] else '.' :: ds.map digitChar

/-- The text of a number. -/
def NumLit.text (l : NumLit) : List Char :=
  (if l.neg then ['-'] else []) ++ (natText l.int ++ (fracText l.frac ++ expText l.exp))

/-- `strconv.AppendInt`. -/
def NumLit.ofInt (i : Int) : NumLit := ⟨decide (i < 0), i.natAbs, [], none⟩

/-- The digits at the beginning. -/
def spanDigits : List Char → List (Fin 10) × List Char
  | [] => ([], [])
  | c :: cs => match charDigit c with
    | none => ([], c :: cs)
    | some d => let r := spanDigits cs; (d :: r.1, r.2)

/-- The fraction, if there is one. -/
def readFrac : List Char → Option (List (Fin 10) × List Char)
  | '.' :: cs => match spanDigits cs with
    | ([], _) => none
    | (d :: ds, r) => some (d :: ds, r)
  | cs => some ([], cs)

/-- Digits of an exponent. -/
def readExpDigits (neg : Bool) (cs : List Char) : Option (Option Int × List Char) :=
  match spanDigits cs with
  | ([], _) => none
  | (d :: ds, r) => some (some (if neg then -(digitsNat (d :: ds) : Int) else digitsNat (d :: ds)), r)

/-- What follows `e` or `E`. -/
def readExpSign : List Char → Option (Option Int × List Char)
  | '-' :: cs => readExpDigits true cs
  | '+' :: cs => readExpDigits false cs
  | cs => readExpDigits false cs

/-- The exponent, if there is one. -/
def readExp : List Char → Option (Option Int × List Char)
  | 'e' :: cs => readExpSign cs
  | 'E' :: cs => readExpSign cs
  | cs => some (none, cs)

/-- Number without its sign. -/
def readUnsigned (neg : Bool) (cs : List Char) : Option (NumLit × List Char) :=
  match spanDigits cs with
  | ([], _) => none
  | (d :: ds, cs) =>
    if d = 0 ∧ ds ≠ [] then none else
    match readFrac cs with
    | none => none
    | some (frac, cs) => match readExp cs with
      | none => none
      | some (exp, cs) => some (⟨neg, digitsNat (d :: ds), frac, exp⟩, cs)

/-- A number at the beginning. -/
def readNum : List Char → Option (NumLit × List Char)
  | '-' :: cs => readUnsigned true cs
  | cs => readUnsigned false cs

/-- Floats as decimal numbers. `write` is none for NaN and infinities (`json.Marshal` fails), `read` for numbers out of
range (`json.Unmarshal` fails). The laws are those of strconv: what `FormatFloat(x, _, -1, 64)` writes reads as `x`, and
integers are rounded like constants. -/
class JsonFloat (F : Type) [GoFloat F] where
  write : F → Option NumLit
  read : NumLit → Option F
  read_write : ∀ x l, write x = some l → read l = some x
  read_int : ∀ i : Int, -2 ^ 63 ≤ i → i < 2 ^ 63 → read (NumLit.ofInt i) = some (lit i)

/-! ## Strings -/

/-- A hexadecimal digit. -/
def hexChar (n : Nat) : Char := if n < 10 then Char.ofNat (48 + n) else Char.ofNat (87 + n)

/-- The value of a hexadecimal digit. -/
def charHex (c : Char) : Option Nat :=
  let n := c.toNat
  if 48 ≤ n ∧ n ≤ 57 then some (n - 48)
  else if 97 ≤ n ∧ n ≤ 102 then some (n - 87)
  else if 65 ≤ n ∧ n ≤ 70 then some (n - 55)
  else none

/-- `\uXXXX`. -/
def escapeU (n : Nat) : List Char :=
  ['\\', 'u', hexChar (n / 4096 % 16), hexChar (n / 256 % 16), hexChar (n / 16 % 16), hexChar (n % 16)]

/-- The characters json.Marshal writes as `\uXXXX` (Go 1.21). -/
def escapedU (c : Char) : Bool :=
  decide (c.toNat < 32) || c == '<' || c == '>' || c == '&' || decide (c.toNat = 0x2028) || decide (c.toNat = 0x2029)

/-- One character of a string. -/
def escapeChar (c : Char) : List Char :=
  if c = '"' then ['\\', '"']
  else if c = '\\' then ['\\', '\\']
  else if c = '\n' then ['\\', 'n']
  else if c = '\r' then ['\\', 'r']
  else if c = '\t' then ['\\', 't']
  else if escapedU c then escapeU c.toNat
  else [c]

/-- A string in quotes. -/
def jsonString (s : String) : List Char := '"' :: (s.toList.flatMap escapeChar ++ ['"'])

/-- Four hexadecimal digits. -/
def hex4 (a b c d : Char) : Option Nat :=
  match charHex a, charHex b, charHex c, charHex d with
  | some a, some b, some c, some d => some (a * 4096 + b * 256 + c * 16 + d)
  | _, _, _, _ => none

/-- The escapes of one character. -/
def unescape : Char → Option Char
  | '"' => some '"'
  | '\\' => some '\\'
  | '/' => some '/'
  | 'b' => some (Char.ofNat 8)
  | 'f' => some (Char.ofNat 12)
  | 'n' => some '\n'
  | 'r' => some '\r'
  | 't' => some '\t'
  | _ => none

/-- What follows a `\` in a string. -/
inductive Esc where
  /-- `\n` and the like. -/
  | char (c : Char)
  /-- `\uXXXX`. -/
  | code (n : Nat)

/-- The escape at the beginning, after the `\`. -/
def readEsc : List Char → Option (Esc × List Char)
  | 'u' :: a :: b :: c :: d :: cs => (hex4 a b c d).map fun n => (.code n, cs)
  | c :: cs => (unescape c).map fun c => (.char c, cs)
  | [] => none

/-- A surrogate. -/
def isSurr (n : Nat) : Bool := decide (0xD800 ≤ n ∧ n < 0xE000)

/-- The low surrogate that follows, and what comes after it. -/
def readLow : List Char → Option (Nat × List Char)
  | '\\' :: cs => match readEsc cs with
    | some (.code n, cs) => if 0xDC00 ≤ n ∧ n < 0xE000 then some (n, cs) else none
    | _ => none
  | _ => none

/-- A string after its opening quote, at most `fuel` characters. Single surrogates are replaced by U+FFFD. -/
def readStrAux : Nat → List Char → Option (List Char × List Char)
  | 0, _ => none
  | _ + 1, [] => none
  | fuel + 1, c :: cs =>
    if c = '"' then some ([], cs)
    else if c = '\\' then
      match readEsc cs with
      | none => none
      | some (.char c, cs) => (readStrAux fuel cs).map fun r => (c :: r.1, r.2)
      | some (.code n, cs) =>
        if isSurr n then
          match (if n < 0xDC00 then readLow cs else none) with
          | some (m, cs) =>
            (readStrAux fuel cs).map fun r => (Char.ofNat (0x10000 + (n - 0xD800) * 0x400 + (m - 0xDC00)) :: r.1, r.2)
          | none => (readStrAux fuel cs).map fun r => (Char.ofNat 0xFFFD :: r.1, r.2)
        else (readStrAux fuel cs).map fun r => (Char.ofNat n :: r.1, r.2)
    else if c.toNat < 32 then none
    else (readStrAux fuel cs).map fun r => (c :: r.1, r.2)

/-- A string after its opening quote. -/
def readStr (cs : List Char) : Option (String × List Char) :=
  (readStrAux (cs.length + 1) cs).map fun r => (String.ofList r.1, r.2)

/-! ## Documents -/

/-- Skips white space. -/
def skipWs : List Char → List Char
  | c :: cs => if c = ' ' ∨ c = '\t' ∨ c = '\n' ∨ c = '\r' then skipWs cs else c :: cs
  | [] => []

variable [GoFloat F] [JsonFloat F]

/-- A scalar at the beginning. -/
def readVal : List Char → Option (JVal F × List Char)
  | 'n' :: 'u' :: 'l' :: 'l' :: cs => some (.null, cs)
  | 't' :: 'r' :: 'u' :: 'e' :: cs => some (.bool true, cs)
  | 'f' :: 'a' :: 'l' :: 's' :: 'e' :: cs => some (.bool false, cs)
  | '"' :: cs => (readStr cs).map fun r => (.str r.1, r.2)
  | cs => match readNum cs with
    | none => none
    | some (l, cs) => (JsonFloat.read l).map fun f => (.num f, cs)

/-- The name of a member, and its colon. -/
def readName : List Char → Option (String × List Char)
  | '"' :: cs => match readStr cs with
    | none => none
    | some (k, cs) => match skipWs cs with
      | ':' :: cs => some (k, cs)
      | _ => none
  | _ => none

/-- At most `fuel` members and the closing brace. -/
def readMembers : Nat → List Char → Option (JObj F × List Char)
  | 0, _ => none
  | fuel + 1, cs => match readName (skipWs cs) with
    | none => none
    | some (k, cs) => match readVal (F := F) (skipWs cs) with
      | none => none
      | some (v, cs) => match skipWs cs with
        | ',' :: cs => (readMembers fuel cs).map fun r => ((k, v) :: r.1, r.2)
        | '}' :: cs => some ([(k, v)], cs)
        | _ => none

/-- The rest of an object after its opening brace. -/
def readObject (cs : List Char) : Option (JObj F × List Char) :=
  match skipWs cs with
  | '}' :: cs => some ([], cs)
  | cs => readMembers (cs.length + 1) cs

/-- A whole document, as `json.Unmarshal` into a map sees it. -/
def readDoc (cs : List Char) : RawProps F :=
  match skipWs cs with
  | '{' :: cs => match readObject cs with
    | some (o, cs) => if skipWs cs = [] then .object o else .invalid
    | none => .invalid
  | 'n' :: 'u' :: 'l' :: 'l' :: cs => if skipWs cs = [] then .null else .invalid
  | _ => .invalid

/-- The bytes of a `props` field, as navigator/route.go:210-216 and navigator/route_track.go:161-165 see them. -/
def readProps (bs : Bytes) : RawProps F :=
  if bs.length = 0 then .empty
  else match String.fromUTF8? ⟨bs.toArray⟩ with
    | some s => readDoc s.toList
    | none => .invalid

/-- The text of a value; none if `json.Marshal` fails. -/
def PVal.text : PVal F → Option (List Char)
  | .null => some ['n', 'u', 'l', 'l']
  | .str s => some (jsonString s)
  | .bool b => some (if b then ['t', 'r', 'u', 'e'] else ['f', 'a', 'l', 's', 'e'])
  | .int i | .int32 i | .int64 i => some (NumLit.ofInt i).text
  | .float f => (JsonFloat.write f).map NumLit.text
  | .other _ => none

/-- The members of an object. -/
def PMap.members : PMap F → Option (List Char)
  | [] => some []
  | [e] => (e.2.text).map fun v => jsonString e.1 ++ ':' :: v
  | e :: m => match e.2.text, members m with
    | some v, some r => some (jsonString e.1 ++ ':' :: (v ++ ',' :: r))
    | _, _ => none

/-- An object. -/
def PMap.text (m : PMap F) : Option (List Char) := m.members.map fun cs => '{' :: (cs ++ ['}'])

omit [GoFloat F] [JsonFloat F] in
/-- Puts an entry in its place. -/
def PMap.insertKey (e : String × PVal F) : PMap F → PMap F
  | [] => [e]
  | x :: m => if e.1 < x.1 then e :: x :: m else x :: insertKey e m

omit [GoFloat F] [JsonFloat F] in
/-- The entries in the order of their keys. -/
def PMap.sorted (m : PMap F) : PMap F := m.foldr PMap.insertKey []

/-- `json.Marshal` of a map. -/
def PMap.marshalText (m : PMap F) : Option (List Char) := m.sorted.text

/-- The `props` field as bytes (navigator/route.go:184-187, navigator/route_track.go:136-139): nothing for a nil map
and if `json.Marshal` fails. -/
def writeProps : Option (PMap F) → Bytes
  | none => []
  | some m => match m.marshalText with
    | none => []
    | some cs => utf8 (String.ofList cs)

/-! ## Messages with the text of properties -/

/-- navigator/route_track.go:131-150 `Snapshot`. -/
def Track.snapshotBytes (t : Track F) : TrackMsg F Bytes := t.snapshot.mapProps fun _ => writeProps t.props

/-- navigator/route.go:179-197 `Snapshot`. -/
def Route.snapshotBytes (r : Route F) : RouteMsg F Bytes :=
  { r.snapshot.mapProps (fun _ => writeProps r.props) with tracks := r.tracks.map Track.snapshotBytes }

/-- navigator/navigator.go:548-574 `Snapshot`. -/
def Navigator.snapshotBytes (n : Navigator F) : NavMsg F Bytes :=
  { n.snapshot.mapProps (fun _ => ([] : Bytes)) with routes := n.routes.map Route.snapshotBytes }

/-- device.go:719-743 `Snapshot`. -/
def Device.snapshotBytes (d : Device F) : SnapMsg F Bytes :=
  { d.snapshot.mapProps (fun _ => ([] : Bytes)) with navigator := some d.navigator.snapshotBytes }

/-- io.go:15-21 `EncodeTracker` of a device that is not nil. -/
def encodeTrackerText {F : Type} [GoMath F] [JsonFloat F] [WireFloat F] (d : Device F) : Go (Device F × Bytes) := do
  let d ← d.update
  return (d, protoMarshal encSnap d.snapshotBytes)

/-- io.go:24-34 `DecodeTracker`; `none` is an error. -/
def decodeTrackerText {F : Type} [GoMath F] [JsonFloat F] [WireFloat F] (data : Bytes) : Go (Option (Device F)) :=
  decodeTrackerBytes readProps data

/-- io.go:69-80 `EncodeRoutes`. -/
def encodeRoutesText [WireFloat F] (rs : List (Route F)) : Except Err Bytes :=
  (encodeRoutes rs).map fun _ => protoMarshal encRoutes ⟨rs.map Route.snapshotBytes⟩

/-- io.go:83-98 `DecodeRoutes`; `none` is an error. -/
def decodeRoutesText [WireFloat F] (data : Bytes) : Go (Option (List (Route F))) := decodeRoutesBytes readProps data

end GpsGen
