import Verif.Model.Route
/-!
# Package random and random routes

random/latlon.go, random/polygon.go, random/string.go, geo/normalize.go and route.go. Random draws are
arguments. Simplification: `strings.ToUpper` changes ASCII letters only; a two-byte string with another
character consists of that single character, whose upper case is no country code either.
-/

namespace GpsGen

variable {F : Type}

/-- random/latlon.go:19-193 `countries`. -/
def countries : List (String × String) := [
  ("AF", "Afghanistan"),
  ("AO", "Angola"),
  ("AL", "Albania"),
  ("AE", "United Arab Emirates"),
  ("AR", "Argentina"),
  ("AM", "Armenia"),
  ("AQ", "Antarctica"),
  ("TF", "French Southern Territories"),
  ("AU", "Australia"),
  ("AT", "Austria"),
  ("AZ", "Azerbaijan"),
  ("BI", "Burundi"),
  ("BE", "Belgium"),
  ("BJ", "Benin"),
  ("BF", "Burkina Faso"),
  ("BD", "Bangladesh"),
  ("BG", "Bulgaria"),
  ("BS", "Bahamas"),
  ("BA", "Bosnia and Herzegovina"),
  ("BY", "Belarus"),
  ("BZ", "Belize"),
  ("BO", "Bolivia"),
  ("BR", "Brazil"),
  ("BN", "Brunei"),
  ("BT", "Bhutan"),
  ("BW", "Botswana"),
  ("CF", "Central African Republic"),
  ("CA", "Canada"),
  ("CH", "Switzerland"),
  ("CL", "Chile"),
  ("CN", "China"),
  ("CI", "Ivory Coast"),
  ("CM", "Cameroon"),
  ("CD", "Congo (Kinshasa)"),
  ("CG", "Congo (Brazzaville)"),
  ("CO", "Colombia"),
  ("CR", "Costa Rica"),
  ("CU", "Cuba"),
  ("CY", "Cyprus"),
  ("CZ", "Czech Republic"),
  ("DE", "Germany"),
  ("DJ", "Djibouti"),
  ("DK", "Denmark"),
  ("DO", "Dominican Republic"),
  ("DZ", "Algeria"),
  ("EC", "Ecuador"),
  ("EG", "Egypt"),
  ("ER", "Eritrea"),
  ("ES", "Spain"),
  ("EE", "Estonia"),
  ("ET", "Ethiopia"),
  ("FI", "Finland"),
  ("FJ", "Fiji"),
  ("FK", "Falkland Islands"),
  ("FR", "France"),
  ("GA", "Gabon"),
  ("GB", "United Kingdom"),
  ("GE", "Georgia"),
  ("GH", "Ghana"),
  ("GN", "Guinea"),
  ("GM", "Gambia"),
  ("GW", "Guinea Bissau"),
  ("GQ", "Equatoral Guinea"),
  ("GR", "Greece"),
  ("GL", "Greenland"),
  ("GT", "Guatemala"),
  ("GY", "Guyana"),
  ("HN", "Honduras"),
  ("HR", "Croatia"),
  ("HT", "Haiti"),
  ("HU", "Hungary"),
  ("ID", "Indonesia"),
  ("IN", "India"),
  ("IE", "Ireland"),
  ("IR", "Iran"),
  ("IQ", "Iraq"),
  ("IS", "Iceland"),
  ("IL", "Israel"),
  ("IT", "Italy"),
  ("JM", "Jamaica"),
  ("JO", "Jordan"),
  ("JP", "Japan"),
  ("KZ", "Kazakhstan"),
  ("KE", "Kenya"),
  ("KG", "Kyrgyzstan"),
  ("KH", "Cambodia"),
  ("KR", "South Korea"),
  ("KW", "Kuwait"),
  ("LA", "Laos"),
  ("LB", "Lebanon"),
  ("LR", "Liberia"),
  ("LY", "Libya"),
  ("LK", "Sri Lanka"),
  ("LS", "Lesotho"),
  ("LT", "Lithuania"),
  ("LU", "Luxembourg"),
  ("LV", "Latvia"),
  ("MA", "Morocco"),
  ("MD", "Moldova"),
  ("MG", "Madagascar"),
  ("MX", "Mexico"),
  ("MK", "Macedonia"),
  ("ML", "Mali"),
  ("MM", "Myanmar"),
  ("ME", "Montenegro"),
  ("MN", "Mongolia"),
  ("MZ", "Mozambique"),
  ("MR", "Mauritania"),
  ("MW", "Malawi"),
  ("MY", "Malaysia"),
  ("NA", "Namibia"),
  ("NC", "New Caledonia"),
  ("NE", "Niger"),
  ("NG", "Nigeria"),
  ("NI", "Nicaragua"),
  ("NL", "Netherlands"),
  ("NO", "Norway"),
  ("NP", "Nepal"),
  ("NZ", "New Zealand"),
  ("OM", "Oman"),
  ("PK", "Pakistan"),
  ("PA", "Panama"),
  ("PE", "Peru"),
  ("PH", "Philippines"),
  ("PG", "Papua New Guinea"),
  ("PL", "Poland"),
  ("PR", "Puerto Rico"),
  ("KP", "North Korea"),
  ("PT", "Portugal"),
  ("PY", "Paraguay"),
  ("QA", "Qatar"),
  ("RO", "Romania"),
  ("RU", "Russia"),
  ("RW", "Rwanda"),
  ("SA", "Saudi Arabia"),
  ("SD", "Sudan"),
  ("SS", "South Sudan"),
  ("SN", "Senegal"),
  ("SB", "Solomon Islands"),
  ("SL", "Sierra Leone"),
  ("SV", "El Salvador"),
  ("SO", "Somalia"),
  ("RS", "Serbia"),
  ("SR", "Suriname"),
  ("SK", "Slovakia"),
  ("SI", "Slovenia"),
  ("SE", "Sweden"),
  ("SZ", "Swaziland"),
  ("SY", "Syria"),
  ("TD", "Chad"),
  ("TG", "Togo"),
  ("TH", "Thailand"),
  ("TJ", "Tajikistan"),
  ("TM", "Turkmenistan"),
  ("TL", "East Timor"),
  ("TT", "Trinidad and Tobago"),
  ("TN", "Tunisia"),
  ("TR", "Turkey"),
  ("TW", "Taiwan"),
  ("TZ", "Tanzania"),
  ("UG", "Uganda"),
  ("UA", "Ukraine"),
  ("UY", "Uruguay"),
  ("US", "United States"),
  ("UZ", "Uzbekistan"),
  ("VE", "Venezuela"),
  ("VN", "Vietnam"),
  ("VU", "Vanuatu"),
  ("PS", "West Bank"),
  ("YE", "Yemen"),
  ("ZA", "South Africa"),
  ("ZM", "Zambia"),
  ("ZW", "Zimbabwe")]

/-- random/latlon.go:195-369 `bboxByCountries`: minimal longitude and latitude, maximal longitude and
latitude, in hundredths of a degree (every literal in the source has at most two decimals). -/
def boxes : List (String × (Int × Int × Int × Int)) := [
  ("AF", (6053, 2932, 7516, 3849)),
  ("AO", (1164, -1793, 2408, -444)),
  ("AL", (1930, 3962, 2102, 4269)),
  ("AE", (5158, 2250, 5640, 2606)),
  ("AR", (-7342, -5525, -5363, -2183)),
  ("AM", (4358, 3874, 4651, 4125)),
  ("AQ", (-18000, -9000, 18000, -6327)),
  ("TF", (6872, -4978, 7056, -4863)),
  ("AU", (11334, -4363, 15357, -1067)),
  ("AT", (948, 4643, 1698, 4904)),
  ("AZ", (4479, 3827, 5039, 4186)),
  ("BI", (2902, -450, 3075, -235)),
  ("BE", (251, 4953, 616, 5148)),
  ("BJ", (77, 614, 380, 1224)),
  ("BF", (-547, 961, 218, 1512)),
  ("BD", (8808, 2067, 9267, 2645)),
  ("BG", (2238, 4123, 2856, 4423)),
  ("BS", (-7898, 2371, -7700, 2704)),
  ("BA", (1575, 4265, 1960, 4523)),
  ("BY", (2320, 5132, 3269, 5617)),
  ("BZ", (-8923, 1589, -8811, 1850)),
  ("BO", (-6959, -2287, -5750, -976)),
  ("BR", (-7399, -3377, -3473, 524)),
  ("BN", (11420, 401, 11545, 545)),
  ("BT", (8881, 2672, 9210, 2830)),
  ("BW", (1990, -2683, 2943, -1766)),
  ("CF", (1446, 227, 2737, 1114)),
  ("CA", (-14100, 4168, -5265, 7323)),
  ("CH", (602, 4578, 1044, 4783)),
  ("CL", (-7564, -5561, -6696, -1758)),
  ("CN", (7368, 1820, 13503, 5346)),
  ("CI", (-860, 434, -256, 1052)),
  ("CM", (849, 173, 1601, 1286)),
  ("CD", (1218, -1326, 3117, 526)),
  ("CG", (1109, -504, 1845, 373)),
  ("CO", (-7899, -430, -6688, 1244)),
  ("CR", (-8594, 823, -8255, 1122)),
  ("CU", (-8497, 1986, -7418, 2319)),
  ("CY", (3226, 3457, 3400, 3517)),
  ("CZ", (1224, 4856, 1885, 5112)),
  ("DE", (599, 4730, 1502, 5498)),
  ("DJ", (4166, 1093, 4332, 1270)),
  ("DK", (809, 5480, 1269, 5773)),
  ("DO", (-7195, 1760, -6832, 1988)),
  ("DZ", (-868, 1906, 1200, 3712)),
  ("EC", (-8097, -496, -7523, 138)),
  ("EG", (2470, 2200, 3687, 3159)),
  ("ER", (3632, 1246, 4308, 1800)),
  ("ES", (-939, 3595, 304, 4375)),
  ("EE", (2334, 5747, 2813, 5961)),
  ("ET", (3295, 342, 4779, 1496)),
  ("FI", (2065, 5985, 3152, 7016)),
  ("FJ", (-18000, -1829, 18000, -1602)),
  ("FK", (-6120, -5230, -5775, -5110)),
  ("FR", (-500, 4250, 956, 5115)),
  ("GA", (880, -398, 1443, 233)),
  ("GB", (-757, 4996, 168, 5864)),
  ("GE", (3996, 4106, 4664, 4355)),
  ("GH", (-324, 471, 106, 1110)),
  ("GN", (-1513, 731, -783, 1259)),
  ("GM", (-1684, 1313, -1384, 1388)),
  ("GW", (-1668, 1104, -1370, 1263)),
  ("GQ", (931, 101, 1129, 228)),
  ("GR", (2015, 3492, 2660, 4183)),
  ("GL", (-7330, 6004, -1221, 8365)),
  ("GT", (-9223, 1374, -8823, 1782)),
  ("GY", (-6141, 127, -5654, 837)),
  ("HN", (-8935, 1298, -8315, 1601)),
  ("HR", (1366, 4248, 1939, 4650)),
  ("HT", (-7446, 1803, -7162, 1992)),
  ("HU", (1620, 4576, 2271, 4862)),
  ("ID", (9529, -1036, 14103, 548)),
  ("IN", (6818, 797, 9740, 3549)),
  ("IE", (-998, 5167, -603, 5513)),
  ("IR", (4411, 2508, 6332, 3971)),
  ("IQ", (3879, 2910, 4857, 3739)),
  ("IS", (-2433, 6350, -1361, 6653)),
  ("IL", (3427, 2950, 3584, 3328)),
  ("IT", (675, 3662, 1848, 4712)),
  ("JM", (-7834, 1770, -7620, 1852)),
  ("JO", (3492, 2920, 3920, 3338)),
  ("JP", (12941, 3103, 14554, 4555)),
  ("KZ", (4647, 4066, 8736, 5539)),
  ("KE", (3389, -468, 4186, 551)),
  ("KG", (6946, 3928, 8026, 4330)),
  ("KH", (10235, 1049, 10761, 1457)),
  ("KR", (12612, 3439, 12947, 3861)),
  ("KW", (4657, 2853, 4842, 3006)),
  ("LA", (10012, 1388, 10756, 2246)),
  ("LB", (3513, 3309, 3661, 3464)),
  ("LR", (-1144, 436, -754, 854)),
  ("LY", (932, 1958, 2516, 3314)),
  ("LK", (7970, 597, 8179, 982)),
  ("LS", (2700, -3065, 2933, -2865)),
  ("LT", (2106, 5391, 2659, 5637)),
  ("LU", (567, 4944, 624, 5013)),
  ("LV", (2106, 5562, 2818, 5797)),
  ("MA", (-1702, 2142, -112, 3576)),
  ("MD", (2662, 4549, 3002, 4847)),
  ("MG", (4325, -2560, 5048, -1204)),
  ("MX", (-11713, 1454, -8681, 3272)),
  ("MK", (2046, 4084, 2295, 4232)),
  ("ML", (-1217, 1010, 427, 2497)),
  ("MM", (9230, 993, 10118, 2834)),
  ("ME", (1845, 4188, 2034, 4352)),
  ("MN", (8775, 4160, 11977, 5205)),
  ("MZ", (3018, -2674, 4078, -1032)),
  ("MR", (-1706, 1462, -492, 2740)),
  ("MW", (3269, -1680, 3577, -923)),
  ("MY", (10009, 77, 11918, 693)),
  ("NA", (1173, -2905, 2508, -1694)),
  ("NC", (16403, -2240, 16712, -2011)),
  ("NE", (30, 1166, 1590, 2347)),
  ("NG", (269, 424, 1458, 1387)),
  ("NI", (-8767, 1073, -8315, 1502)),
  ("NL", (331, 5080, 709, 5351)),
  ("NO", (499, 5808, 3129, 7092)),
  ("NP", (8009, 2640, 8817, 3042)),
  ("NZ", (16651, -4664, 17852, -3445)),
  ("OM", (5200, 1665, 5981, 2640)),
  ("PK", (6087, 2369, 7784, 3713)),
  ("PA", (-8297, 722, -7724, 961)),
  ("PE", (-8141, -1835, -6867, -6)),
  ("PH", (11717, 558, 12654, 1851)),
  ("PG", (14100, -1065, 15602, -250)),
  ("PL", (1407, 4903, 2403, 5485)),
  ("PR", (-6724, 1795, -6559, 1852)),
  ("KP", (12427, 3767, 13078, 4299)),
  ("PT", (-953, 3684, -639, 4228)),
  ("PY", (-6269, -2755, -5429, -1934)),
  ("QA", (5074, 2456, 5161, 2611)),
  ("RO", (2022, 4369, 2963, 4822)),
  ("RU", (-18000, 4115, 18000, 8125)),
  ("RW", (2902, -292, 3082, -113)),
  ("SA", (3463, 1635, 5567, 3216)),
  ("SD", (2194, 862, 3841, 2200)),
  ("SS", (2389, 351, 3530, 1225)),
  ("SN", (-1763, 1233, -1147, 1660)),
  ("SB", (15649, -1083, 16240, -660)),
  ("SL", (-1325, 679, -1023, 1005)),
  ("SV", (-9010, 1315, -8772, 1442)),
  ("SO", (4098, -168, 5113, 1202)),
  ("RS", (1883, 4225, 2299, 4617)),
  ("SR", (-5804, 182, -5396, 603)),
  ("SK", (1688, 4776, 2256, 4957)),
  ("SI", (1370, 4545, 1656, 4685)),
  ("SE", (1103, 5536, 2390, 6911)),
  ("SZ", (3068, -2729, 3207, -2566)),
  ("SY", (3570, 3231, 4235, 3723)),
  ("TD", (1354, 742, 2389, 2341)),
  ("TG", (-5, 593, 187, 1102)),
  ("TH", (9738, 569, 10559, 2042)),
  ("TJ", (6744, 3674, 7498, 4096)),
  ("TM", (5250, 3527, 6655, 4275)),
  ("TL", (12497, -939, 12734, -827)),
  ("TT", (-6195, 1000, -6090, 1089)),
  ("TN", (752, 3031, 1149, 3735)),
  ("TR", (2604, 3582, 4479, 4214)),
  ("TW", (12011, 2197, 12195, 2530)),
  ("TZ", (2934, -1172, 4032, -95)),
  ("UG", (2958, -144, 3504, 425)),
  ("UA", (2209, 4436, 4008, 5234)),
  ("UY", (-5843, -3495, -5321, -3011)),
  ("US", (-12500, 2500, -6696, 4950)),
  ("UZ", (5593, 3714, 7306, 4559)),
  ("VE", (-7330, 72, -5976, 1216)),
  ("VN", (10217, 860, 10934, 2335)),
  ("VU", (16663, -1660, 16784, -1463)),
  ("PS", (3493, 3135, 3555, 3253)),
  ("YE", (4260, 1259, 5311, 1900)),
  ("ZA", (1634, -3482, 3283, -2209)),
  ("ZM", (2189, -1796, 3349, -824)),
  ("ZW", (2526, -2227, 3285, -1551))]
/-- `strings.ToUpper` on ASCII. -/
def upper (s : String) : String := String.ofList (s.toList.map Char.toUpper)

/-- Go map access with presence flag. -/
def lookup? {α : Type} (l : List (String × α)) (k : String) : Option α :=
  (l.find? (fun e => e.1 == k)).map (·.2)

/-- random/latlon.go:372-382 `CountryName`; `none` is `ErrCountryNotFound`. -/
def countryName (code : String) : Option String :=
  if goLen code ≠ 2 then none else lookup? countries (upper code)

/-- geo/geo.go:26-31 `BBox`. -/
structure BBox (F : Type) where
  minLon : F
  minLat : F
  maxLon : F
  maxLat : F
  deriving DecidableEq, Repr

/-- geo/geo.go:33-38 `In`; `a >= b` is `b <= a`. -/
def BBox.contains [GoFloat F] (b : BBox F) (p : LatLon F) : Bool :=
  (b.minLon <=. p.lon) && (b.minLat <=. p.lat) && (p.lon <=. b.maxLon) && (p.lat <=. b.maxLat)

/-- geo/geo.go:40-45 `Center`. -/
def BBox.center [GoFloat F] (b : BBox F) : LatLon F :=
  ⟨(b.minLat +. b.maxLat) /. lit 2, (b.minLon +. b.maxLon) /. lit 2⟩

/-- A literal given in hundredths. -/
def cents [GoFloat F] (n : Int) : F := lit ((n : Rat) / 100)

/-- random/latlon.go:392-407 `BoundingBox`; `none` is `ErrCountryBoundsNotFound`. -/
def boundingBox [GoFloat F] (code : String) : Option (BBox F) :=
  if goLen code ≠ 2 then none else
  (lookup? boxes (upper code)).map (fun b => ⟨cents b.1, cents b.2.1, cents b.2.2.1, cents b.2.2.2⟩)

/-- random/latlon.go:410-423 `LatLonByCountry`; `u` and `v` are the draws for longitude and latitude. -/
def latLonByCountry [GoFloat F] (code : String) (u v : F) : Option (LatLon F) :=
  if goLen code ≠ 2 then none else
  match boundingBox (upper code) with
  | none => none
  | some b => some ⟨v *. (b.maxLat -. b.minLat) +. b.minLat, u *. (b.maxLon -. b.minLon) +. b.minLon⟩

/-- random/latlon.go:426-443 `LatLon`, `rnd`, `lon` and `lat`; `u` and `v` are the draws for latitude and
longitude. -/
def latLon [GoFloat F] (u v : F) : LatLon F :=
  ⟨(u -. lit (1/2)) *. lit 180, (v -. lit (1/2)) *. lit 360⟩

/-- `math.Phi`. -/
def phi [GoFloat F] : F :=
  lit (161803398874989484820458683436563811772030917980576286213544862 / 10 ^ 62)

/-- random/polygon.go:57-59 `randFactor(minFactor, maxFactor)`; `e` is the exponentially distributed draw. -/
def randFactor [GoFloat F] (min max e : F) : F := min +. e *. (max -. min)

/-- `offsets[i]`, random/polygon.go:31-38; `u` are the draws. -/
def polygonOffset [GoFloat F] (u : Nat → F) : Nat → F
  | 0 => u 0
  | i + 1 => polygonOffset u i +. u (i + 1)

/-- One coordinate, random/polygon.go:41-51. -/
def polygonPoint [GoMath F] (zoom last offset e : F) : F × F :=
  let cur := (offset *. lit 6 *. phi) /. last
  let factor := randFactor (lit (1 / 10000)) (lit (5 / 10000)) e
  if lit 0 <. zoom then (factor *. zoom *. GoMath.sin cur, factor *. zoom *. GoMath.cos cur)
  else (factor *. GoMath.sin cur, factor *. GoMath.cos cur)

/-- random/polygon.go:19-55 `Polygon`; `u` and `e` are the draws. -/
def polygon [GoMath F] (points : Int) (zoom : F) (u e : Nat → F) : Go (List (F × F)) := do
  let points := if points < 0 then 16 else points
  let zoom := if zoom <. lit 0 then lit 0 else zoom
  let zoom := if lit 1000 <. zoom then lit 1000 else zoom
  let offsets := (List.range points.toNat).map (polygonOffset u)
  let last ← goIndex offsets ((offsets.length : Int) - 1)
  let coordinates := (List.range points.toNat).map
    (fun i => polygonPoint zoom last (polygonOffset u i) (e i))
  let first ← goIndex coordinates 0
  return coordinates ++ [first]

/-- random/string.go:3-4 `charset`. -/
def charset : String := "abcdefghijklmnopqrstuvwxyzABCDEFGHIJKLMNOPQRSTUVWXYZ0123456789"

/-- random/string.go:11-21 `stringWithCharset` for an ASCII charset; `draws` are the results of
`Intn(len(charset))`, which panics for an empty charset. -/
def stringWithCharset (length : Int) (chars : String) (draws : Nat → Nat) : Go String :=
  if length ≤ 0 then .ok "" else do
  let cs ← (List.range length.toNat).mapM (fun i => goIndex chars.toList (draws i))
  return String.ofList cs

/-- random/string.go:7-9 `String`. -/
def randomString (length : Int) (draws : Nat → Nat) : Go String := stringWithCharset length charset draws

/-- geo/normalize.go:4-13 `NormalizeCoordinates`. -/
def normalizeCoordinates [GoFloat F] (lat lon : F) (points : List (F × F)) : List (LatLon F) :=
  points.map (fun p => ⟨p.1 +. lat, p.2 +. lon⟩)

/-- The draws for one random track. -/
structure TrackRnd (F : Type) where
  u : Nat → F
  e : Nat → F
  uid : String
  color : String
  name : Nat → Nat

/-- Body of the loop of `RandomRoute`, route.go:36-42. A failed `NewTrack` would leave a nil track. -/
def randomTrack [GoMath F] (lat lon zoom : F) (rnd : TrackRnd F) : Go (Track F) := do
  let raw ← polygon 16 zoom rnd.u rnd.e
  let points := normalizeCoordinates lat lon raw
  match Track.new rnd.uid rnd.color points with
  | .error _ => .error .nilDeref
  | .ok track =>
    let name ← randomString 8 rnd.name
    return (track.changeName ("Track-" ++ name)).1

/-- The loop of `RandomRoute`, route.go:35-43. -/
def randomTracks [GoMath F] (lat lon zoom : F) (rnd : Nat → TrackRnd F) : Nat → Route F → Go (Route F)
  | 0, r => .ok r
  | n + 1, r => do
    let t ← randomTrack lat lon zoom (rnd n)
    randomTracks lat lon zoom rnd n (r.addTrack (some t))

/-- route.go:23-45 `RandomRoute`; the draws for the tracks are numbered downwards. -/
def randomRoute [GoMath F] (lon lat : F) (numTrack level : Int) (uid color : String) (name : Nat → Nat)
    (rnd : Nat → TrackRnd F) : Go (Route F) := do
  let numTrack := if numTrack < 0 then 1 else numTrack
  let level := if level < 10 then 10 else level
  let level := if level > 600 then 600 else level
  let s ← randomString 8 name
  let route := ((Route.new uid color).changeName ("Route-" ++ s)).1
  randomTracks lat lon (lit level) rnd numTrack.toNat route

/-- route.go:48-56 `RandomRouteForNewYork`. -/
def randomRouteForNewYork [GoMath F] (uid color : String) (name : Nat → Nat) (rnd : Nat → TrackRnd F) :
    Go (Route F) :=
  randomRoute (lit (-74006 / 10 ^ 3)) (lit (407128 / 10 ^ 4)) 3 120 uid color name rnd

/-- route.go:59-67 `RandomRouteForMoscow`. -/
def randomRouteForMoscow [GoMath F] (uid color : String) (name : Nat → Nat) (rnd : Nat → TrackRnd F) :
    Go (Route F) :=
  randomRoute (lit (37621096697276414 / 10 ^ 15)) (lit (55753437064373315 / 10 ^ 15)) 3 120 uid color name rnd

/-- route.go:70-78 `RandomRouteForParis`. -/
def randomRouteForParis [GoMath F] (uid color : String) (name : Nat → Nat) (rnd : Nat → TrackRnd F) :
    Go (Route F) :=
  randomRoute (lit (2349892200521907 / 10 ^ 15)) (lit (48855323829674006 / 10 ^ 15)) 3 120 uid color name rnd

end GpsGen
