import Verif.Model.Gpx
/-!
# GPX documents as text

`Encode` and `Decode` of package gpx on text. The text is made by github.com/tkrajina/gpxgo v1.3.0 and by encoding/xml, whose
sources are not part of the repository; they are modelled from the XML recommendation, the files in gpx/testdata (which
gpxgo wrote) and the documentation of the packages. What matters here: values of attributes and texts are escaped, names
of attributes are written as they are.

Simplifications: text is UTF-8. Which characters above 127 belong to names is the argument `NameChars`. Comments, CDATA
sections, document types and other entities than the predefined ones and numbers are refused; processing instructions are
skipped, without the check of version and encoding; the version of GPX is not looked at. Attributes without a name are
left out, as encoding/xml does. gpxgo leaves out extension nodes without text and without nodes and trims the texts;
the theorems exclude such texts.
-/

namespace GpsGen

variable {F : Type}

namespace XmlText

/-! ## Names -/

/-- Which characters above 127 may begin or continue a name. -/
structure NameChars where
  first : Char → Bool
  more : Char → Bool

/-- A character that may begin a name. -/
def isFirst (N : NameChars) (c : Char) : Bool :=
  if c.toNat < 128 then c.isAlpha || c == '_' || c == ':' else N.first c

/-- A character that may continue a name. -/
def isMore (N : NameChars) (c : Char) : Bool :=
  isFirst N c || (if c.toNat < 128 then c.isDigit || c == '-' || c == '.' else N.more c)

/-- A name, with at most one colon. -/
def isName (N : NameChars) (s : List Char) : Bool :=
  match s with
  | [] => false
  | c :: cs => isFirst N c && cs.all (isMore N) && decide ((c :: cs).count ':' ≤ 1)

/-- A character at which reading a name does not stop. -/
def inName (c : Char) : Bool :=
  decide (128 ≤ c.toNat) || c.isAlphanum || c == '_' || c == ':' || c == '.' || c == '-'

/-- The name at the beginning of the text. -/
def readName (N : NameChars) (cs : List Char) : Option (String × List Char) :=
  if isName N (cs.takeWhile inName) then some (String.ofList (cs.takeWhile inName), cs.dropWhile inName) else none

/-- `xml.Name.Local`: the name without its prefix. -/
def localName (s : String) : String :=
  let a := s.toList.takeWhile (· != ':')
  let b := (s.toList.dropWhile (· != ':')).tail
  if a = [] ∨ b = [] then s else String.ofList b

/-! ## Characters -/

/-- The characters of XML documents. -/
def xmlChar (c : Char) : Bool :=
  c == '\t' || c == '\n' || c == '\r' || (decide (32 ≤ c.toNat) && c != '\uFFFE' && c != '\uFFFF')

/-- A character as `xml.EscapeText` writes it; the newline is escaped in attributes only. -/
def escChar (attr : Bool) (c : Char) : List Char :=
  if c = '"' then "&#34;".toList
  else if c = '\'' then "&#39;".toList
  else if c = '&' then "&amp;".toList
  else if c = '<' then "&lt;".toList
  else if c = '>' then "&gt;".toList
  else if c = '\t' then "&#x9;".toList
  else if c = '\n' then (if attr then "&#xA;".toList else ['\n'])
  else if c = '\r' then "&#xD;".toList
  else if xmlChar c then [c]
  else ['\uFFFD']

/-- The value of a digit. -/
def hexVal (c : Char) : Option Nat :=
  if '0' ≤ c ∧ c ≤ '9' then some (c.toNat - 48)
  else if 'a' ≤ c ∧ c ≤ 'f' then some (c.toNat - 87)
  else if 'A' ≤ c ∧ c ≤ 'F' then some (c.toNat - 55)
  else none

/-- The number written by digits of the given base. -/
def readBase (b : Nat) : Nat → List Char → Option Nat
  | n, [] => some n
  | n, c :: cs => (hexVal c).bind fun d => if d < b then readBase b (b * n + d) cs else none

/-- The character with the given number: surrogates become U+FFFD, numbers beyond Unicode are refused. -/
def ofCode (n : Nat) : Option Char :=
  if n.isValidChar then some (Char.ofNat n) else if n ≤ 0x10FFFF then some '\uFFFD' else none

/-- The character that stands between `&` and `;`. -/
def entity (s : List Char) : Option Char :=
  if s = "lt".toList then some '<'
  else if s = "gt".toList then some '>'
  else if s = "amp".toList then some '&'
  else if s = "apos".toList then some '\''
  else if s = "quot".toList then some '"'
  else match s with
    | '#' :: 'x' :: ds => if ds = [] then none else (readBase 16 0 ds).bind ofCode
    | '#' :: ds => if ds = [] then none else (readBase 10 0 ds).bind ofCode
    | _ => none

/-- Ends of lines become newlines. -/
def newlines : List Char → List Char
  | [] => []
  | '\r' :: '\n' :: cs => '\n' :: newlines cs
  | '\r' :: cs => '\n' :: newlines cs
  | c :: cs => c :: newlines cs

/-- Replaces the entities; the first argument is what was read of an entity, the last character first. -/
def unescape : Option (List Char) → List Char → Option (List Char)
  | none, [] => some []
  | some _, [] => none
  | none, c :: cs => if c = '&' then unescape (some []) cs else (unescape none cs).map (c :: ·)
  | some e, c :: cs =>
    if c = ';' then (entity e.reverse).bind fun x => (unescape none cs).map (x :: ·) else unescape (some (c :: e)) cs

/-- The text that is written by `raw`. -/
def decodeText (raw : List Char) : Option String :=
  (unescape none (newlines raw)).bind fun s => if s.all xmlChar then some (String.ofList s) else none

/-! ## Reading -/

/-- A node of a document. `space` is layout: it is written as it is and read as `text`. -/
inductive Xml where
  | elem (name : String) (attrs : Attrs) (kids : List Xml)
  | text (s : String)
  | space (s : String)

/-- White space. -/
def isSpace (c : Char) : Bool := c == ' ' || c == '\t' || c == '\n' || c == '\r'

/-- The text after white space. -/
def skipSpace (cs : List Char) : List Char := cs.dropWhile isSpace

/-- The value of an attribute between quotes. -/
def readValue : List Char → Option (String × List Char)
  | [] => none
  | q :: cs =>
    if q = '"' ∨ q = '\'' then
      let raw := cs.takeWhile (· != q)
      match cs.dropWhile (· != q) with
      | [] => none
      | _ :: rest => if '<' ∈ raw then none else (decodeText raw).map fun v => (v, rest)
    else none

/-- The rest of a start tag after the name, and whether it ends with `/>`. -/
def readAttrs (N : NameChars) : Nat → List Char → Option (Attrs × Bool × List Char)
  | 0, _ => none
  | fuel + 1, cs =>
    let cs := skipSpace cs
    if cs.head? = some '>' then some ([], false, cs.tail)
    else if cs.head? = some '/' then (if cs.tail.head? = some '>' then some ([], true, cs.tail.tail) else none)
    else (readName N cs).bind fun (k, cs) =>
      let cs := skipSpace cs
      if cs.head? = some '=' then
        (readValue (skipSpace cs.tail)).bind fun (v, cs) =>
          (readAttrs N fuel cs).map fun (as, e, cs) => ((k, v) :: as, e, cs)
      else none

/-- The end tag of the element with the given name. -/
def readEnd (N : NameChars) (name : String) (cs : List Char) : Option (List Char) :=
  if cs.head? = some '<' ∧ cs.tail.head? = some '/' then
    (readName N cs.tail.tail).bind fun (n, cs) =>
      let cs := skipSpace cs
      if n = name ∧ cs.head? = some '>' then some cs.tail else none
  else none

/-- The text after a processing instruction. -/
def skipInst : List Char → Option (List Char)
  | [] => none
  | '?' :: '>' :: cs => some cs
  | _ :: cs => skipInst cs

/-- `]]>` may not occur in text. -/
def hasCdEnd : List Char → Bool
  | [] => false
  | ']' :: ']' :: '>' :: _ => true
  | _ :: cs => hasCdEnd cs

mutual
/-- The element whose `<` was read, and the text after it. -/
def readElem (N : NameChars) : Nat → List Char → Option (Xml × List Char)
  | 0, _ => none
  | fuel + 1, cs =>
    (readName N cs).bind fun (name, cs) =>
      (readAttrs N (cs.length + 1) cs).bind fun (as, e, cs) =>
        if e then some (.elem name as [], cs)
        else (readKids N fuel cs).bind fun (ks, cs) => (readEnd N name cs).map fun cs => (.elem name as ks, cs)
/-- The nodes up to the next end tag or the end of the text. -/
def readKids (N : NameChars) : Nat → List Char → Option (List Xml × List Char)
  | 0, _ => none
  | fuel + 1, cs =>
    if cs = [] then some ([], [])
    else if cs.head? = some '<' then
      if cs.tail.head? = some '/' then some ([], cs)
      else if cs.tail.head? = some '?' then (skipInst cs.tail.tail).bind fun cs => readKids N fuel cs
      else (readElem N fuel cs.tail).bind fun (x, cs) => (readKids N fuel cs).map fun (xs, cs) => (x :: xs, cs)
    else
      let raw := cs.takeWhile (· != '<')
      if hasCdEnd raw then none
      else (decodeText raw).bind fun s =>
        (readKids N fuel (cs.dropWhile (· != '<'))).map fun (xs, cs) => (.text s :: xs, cs)
end

/-- The first element of a document; what follows it is not read. -/
def readRoot (N : NameChars) : Nat → List Char → Option Xml
  | 0, _ => none
  | fuel + 1, cs =>
    if cs = [] then none
    else if cs.head? = some '<' then
      if cs.tail.head? = some '?' then (skipInst cs.tail.tail).bind fun cs => readRoot N fuel cs
      else (readElem N (2 * cs.length) cs.tail).map fun x => x.1
    else if hasCdEnd (cs.takeWhile (· != '<')) then none
    else (decodeText (cs.takeWhile (· != '<'))).bind fun _ => readRoot N fuel (cs.dropWhile (· != '<'))

/-- The document. -/
def parseXml (N : NameChars) (cs : List Char) : Option Xml := readRoot N (cs.length + 1) cs

/-! ## Writing -/

/-- An attribute of a start tag. Its name is written as it is. -/
def attrText (a : String × String) : List Char :=
  if a.1 = "" then [] else ' ' :: (a.1.toList ++ '=' :: '"' :: (a.2.toList.flatMap (escChar true) ++ ['"']))

mutual
/-- The text of a node. -/
def Xml.write : Xml → List Char
  | .elem name as ks =>
    '<' :: (name.toList ++ (as.flatMap attrText ++ '>' :: (Xml.writeAll ks ++ '<' :: '/' :: (name.toList ++ ['>']))))
  | .text s => s.toList.flatMap (escChar false)
  | .space s => s.toList
/-- The text of a list of nodes. -/
def Xml.writeAll : List Xml → List Char
  | [] => []
  | k :: ks => Xml.write k ++ Xml.writeAll ks
end

end XmlText

/-! ## GPX -/

open XmlText

/-- How gpxgo writes: what it indents with and the text of a coordinate. -/
structure GpxLayout (F : Type) where
  indent : String
  coord : F → String

/-- The end of a line and the beginning of the next one. -/
def gpxLine (L : GpxLayout F) (d : Nat) : Xml := .space (String.ofList ('\n' :: (List.replicate d L.indent.toList).flatten))

/-- Nodes on lines of their own, within an element at depth `d`. -/
def gpxLines (L : GpxLayout F) (d : Nat) (ks : List Xml) : List Xml :=
  if ks = [] then [] else ks.flatMap (fun k => [gpxLine L (d + 1), k]) ++ [gpxLine L d]

/-- A point of a track (gpx/encoding.go:281-301 and gpxgo). -/
def gpxPointXml (L : GpxLayout F) (p : LatLon F) : Xml := .elem "trkpt" [("lat", L.coord p.lat), ("lon", L.coord p.lon)] []

/-- The segment for a track (gpx/encoding.go:55-57, 72). -/
def gpxSegXml (L : GpxLayout F) (t : Track F) : Xml :=
  .elem "trkseg" [] (gpxLines L 2 ((Track.points t.segments).map (gpxPointXml L)))

/-- The GPX track for a route (gpx/encoding.go:37-39, 76). -/
def gpxTrkXml (L : GpxLayout F) (r : Route F) : Xml := .elem "trk" [] (gpxLines L 1 (r.tracks.map (gpxSegXml L)))

/-- An extension node for a track. -/
def gpxTrackXml (n : GpxTrackNode) : Xml := .elem "track" n.attrs [.text n.data]

/-- An extension node for a route. -/
def gpxRouteXml (L : GpxLayout F) (n : GpxRouteNode) : Xml := .elem "route" n.attrs (gpxLines L 3 (n.nodes.map gpxTrackXml))

/-- The nodes of the document (gpx/encoding.go:26-80). -/
def gpxKids (L : GpxLayout F) (T : GpxText F) (rs : List (Route F)) : List Xml :=
  gpxLines L 0 (
    .elem "metadata" [] (gpxLines L 1 [.elem "author" [] (gpxLines L 2 [.elem "name" [] [.text "go-gpsgen"]])]) ::
    (rs.map (gpxTrkXml L) ++
      [.elem "extensions" [] (gpxLines L 1 [.elem "gpsgen" [] (gpxLines L 2 (rs.map fun r => gpxRouteXml L (gpxRouteNode T r)))])]))

/-- The attributes of the document. -/
def gpxAttrs : Attrs :=
  [("xmlns", "http://www.topografix.com/GPX/1/1"), ("version", "1.1"), ("creator", "https://github.com/tkrajina/gpxgo")]

/-- The first line. -/
def gpxHeader : List Char := "<?xml version=\"1.0\" encoding=\"UTF-8\"?>\n<gpx ".toList

/-- gpx/encoding.go:21-81 `Encode`. -/
def gpxEncodeText (L : GpxLayout F) (T : GpxText F) (rs : List (Route F)) : Except Err (List Char) :=
  if rs.length = 0 then .error .noRoutes
  else .ok (gpxHeader ++ (gpxAttrs.flatMap attrText ++ '>' :: (Xml.writeAll (gpxKids L T rs) ++ "</gpx>".toList)))

/-- The elements with the given local name. -/
def elemsNamed (s : String) : List Xml → List (Attrs × List Xml)
  | [] => []
  | .elem n as ks :: xs => if localName n = s then (as, ks) :: elemsNamed s xs else elemsNamed s xs
  | .text _ :: xs => elemsNamed s xs
  | .space _ :: xs => elemsNamed s xs

/-- All elements with their local names. -/
def elems : List Xml → List (String × Attrs × List Xml)
  | [] => []
  | .elem n as ks :: xs => (localName n, as, ks) :: elems xs
  | .text _ :: xs => elems xs
  | .space _ :: xs => elems xs

/-- The text of a node. -/
def charData : List Xml → String
  | [] => ""
  | .elem _ _ _ :: xs => charData xs
  | .text s :: xs => s ++ charData xs
  | .space s :: xs => s ++ charData xs

/-- Attributes with their local names. -/
def localAttrs (as : Attrs) : Attrs := as.map fun a => (localName a.1, a.2)

/-- A coordinate of a point: 0 if missing, the last one if there are several. -/
def gpxReadCoord [GoFloat F] (T : GpxText F) (as : Attrs) (k : String) : Option F :=
  match ((localAttrs as).filter fun a => a.1 == k).getLast? with
  | none => some (lit 0)
  | some (_, s) => if s = "" then some (lit 0) else T.parseFloat s

/-- A point. -/
def gpxReadPoint [GoFloat F] (T : GpxText F) (as : Attrs) : Option (LatLon F) :=
  (gpxReadCoord T as "lat").bind fun a => (gpxReadCoord T as "lon").map fun b => ⟨a, b⟩

/-- Every element of the list, if all of them can be read. -/
def gpxReadList {α β : Type} (f : α → Option β) : List α → Option (List β)
  | [] => some []
  | a :: l => (f a).bind fun b => (gpxReadList f l).map (b :: ·)

/-- The points among the nodes. -/
def gpxReadPoints [GoFloat F] (T : GpxText F) (s : String) (ks : List Xml) : Option (List (LatLon F)) :=
  gpxReadList (fun e => gpxReadPoint T e.1) (elemsNamed s ks)

/-- An extension node for a track. -/
def readTrackNode (e : String × Attrs × List Xml) : GpxTrackNode := ⟨localAttrs e.2.1, charData e.2.2⟩

/-- An extension node for a route. -/
def readRouteNode (e : String × Attrs × List Xml) : GpxRouteNode := ⟨localAttrs e.2.1, (elems e.2.2).map readTrackNode⟩

/-- `gpx.ParseBytes` (gpx/encoding.go:88). -/
def gpxParse [GoFloat F] (N : NameChars) (T : GpxText F) (cs : List Char) : Option (GpxDoc F) :=
  match parseXml N cs with
  | some (.elem n _ ks) =>
    if localName n = "gpx" then
      (gpxReadList (fun e => gpxReadPoints T "rtept" e.2) (elemsNamed "rte" ks)).bind fun routes =>
        (gpxReadList (fun e => gpxReadList (fun e => gpxReadPoints T "trkpt" e.2) (elemsNamed "trkseg" e.2)) (elemsNamed "trk" ks)).bind
          fun tracks =>
            (gpxReadPoints T "wpt" ks).map fun wpts =>
              ⟨routes, tracks, wpts, ((elemsNamed "extensions" ks).flatMap fun e => elems e.2).map fun e =>
                (e.1, (elems e.2.2).map readRouteNode)⟩
    else none
  | _ => none

/-- gpx/encoding.go:84-197 `Decode`. Errors of gpxgo are `none`. -/
def gpxDecodeText [GoMath F] (N : NameChars) (T : GpxText F) (gen : Nat → Nat → String × String) (cs : List Char) :
    Go (Option (Except Err (List (Route F)))) :=
  if cs = [] then .ok (some (.error .noRoutes))
  else match gpxParse N T cs with
    | none => .ok none
    | some d => (gpxDecode T gen d).map some

end GpsGen
