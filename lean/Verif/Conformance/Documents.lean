import Verif.Conformance.Library
import Verif.Conformance.Fixture
import Verif.Lemmas.ExampleText
/-!
# The tests of GeoJSON and GPX documents, replayed

geojson/encoding_test.go `TestDecode` and gpx/encoding_test.go `TestDecodeExistingRoutes` and `TestDecodeNewRoutes`: the documents of
the `testdata` directories, read by the model of the readers and decoded in doubles, with the results that the tests expect.
-/

namespace GpsGen
namespace Conformance
namespace DocumentTest
open F64

/-- Identifiers and colours for new routes and tracks. -/
def gen : Nat → Nat → String × String := fun _ _ => ("new", "#ffffff")

/-- `math.Floor` of a length. -/
def floor : F64 → Int
  | .fin _ q _ => q.floor
  | _ => -1

/-- What the tests look at: identifier, colour, length in whole metres, and for each track identifier, colour, length and number of
segments. -/
def look (rs : List (Route F64)) : List (String × String × Int × List (String × String × Int × Nat)) :=
  rs.map fun r => (r.id, r.color, floor r.dist, r.tracks.map fun t => (t.id, t.color, floor t.dist, t.segments.length))

/-- Number of tracks of each route. -/
def numTracks (rs : List (Route F64)) : List Nat := rs.map fun r => r.tracks.length

/-! ## geojson/encoding_test.go -/

/-- `Decode` on the characters of a document. -/
def geo (cs : List Char) : Go (Option (List (Route F64))) :=
  match (readJson (F := F64) cs).bind readCollection with
  | none => .ok none
  | some doc => (geoDecode gen doc).map Except.toOption

theorem geo_text (s : String) : geoDecodeText (F := F64) gen (utf8 s) = geo s.toList := by
  unfold geoDecodeText geo
  rw [Examples.readGeo_utf8]
  cases (readJson (F := F64) s.toList).bind readCollection <;> rfl

/-- An error. -/
def refused (r : Go (Option (List (Route F64)))) : Bool := match r with | .ok none => true | _ => false
/-- Routes that pass a check. -/
def accepted (r : Go (Option (List (Route F64)))) (p : List (Route F64) → Bool) : Bool :=
  match r with | .ok (some rs) => p rs | _ => false

/-- geojson/testdata/invalid_route_geometry.geojson -/
def invalidRouteGeometry : String := r##"{
    "features": [
      {
        "type": "Feature",
        "geometry": {
          "type": "GeometryCollection",
          "geometries": [
            {
              "type": "Polygon",
              "coordinates": [
                [
                  [
                    106.45792276464522,
                    29.533628561797286
                  ],
                  [
                    106.45792276464522,
                    29.529399791830542
                  ],
                  [
                    106.46334808393323,
                    29.529399791830542
                  ],
                  [
                    106.46334808393323,
                    29.533628561797286
                  ],
                  [
                    106.45792276464522,
                    29.533628561797286
                  ]
                ]
              ]
            },
            {
              "type": "LineString",
              "coordinates": [
                [
                  106.45688223543743,
                  29.52481100757835
                ],
                [
                  106.46224152558176,
                  29.528509455345258
                ]
              ]
            }
          ]
        },
        "properties": {
          "color": "#9d031c",
          "distance": 2652.039495805213,
          "numTracks": 2,
          "routeID": "5a5a1a02-3882-4e9a-aa04-6ec8aed004e9",
          "tracksInfo": [
            {
              "trackID": "46b275c6-c3a5-4f9f-b6d6-c25ebc077311",
              "color": "#61aa2c",
              "distance": 1990.2240332037318,
              "numSegments": 4,
              "properties": {"foo":"bar", "speed": 3}
            },
            {
              "trackID": "dfcedae9-d8bd-4285-9aef-e602a25014f9",
              "color": "#aa442f",
              "distance": 661.8154626014809,
              "numSegments": 1,
              "properties": {}
            }
          ],
          "units": "meters"
        }
      },
      {
        "type": "Feature",
        "geometry": {
          "type": "LineString",
          "coordinates": [
            [
              106.45688223543743,
              29.52481100757835
            ],
            [
              106.46224152558176,
              29.528509455345258
            ]
          ]
        },
        "properties": {
          "color": "#a40a72",
          "distance": 661.8154626014809,
          "numTracks": 1,
          "routeID": "2e64af89-fdd0-4802-94de-7951c02aa112",
          "tracksInfo": [
            {
              "trackID": "dfcedae9-d8bd-4285-9aef-e602a25014f9",
              "color": "#aa442f",
              "distance": 661.8154626014809,
              "numSegments": 1,
              "properties": {}
            }
          ],
          "units": "meters"
        }
      },
      {
        "type": "Feature",
        "geometry": {
            "type": "MultiPolygon",
            "coordinates": [
                [
                    [
                        [
                            107,
                            7
                        ],
                        [
                            108,
                            7
                        ],
                        [
                            108,
                            8
                        ],
                        [
                            107,
                            8
                        ],
                        [
                            107,
                            7
                        ]
                    ]
                ],
                [
                    [
                        [
                            100,
                            0
                        ],
                        [
                            101,
                            0
                        ],
                        [
                            101,
                            1
                        ],
                        [
                            100,
                            1
                        ],
                        [
                            100,
                            0
                        ]
                    ]
                ]
            ]
        },
        "properties": {
          "color": "#ab0911",
          "distance": 2121.450689846222,
          "numTracks": 1,
          "routeID": "80d7893e-8126-4a63-b32e-f736436ad41c",
          "tracksInfo": [
            {
              "trackID": "03a0448e-e83b-4ada-b32d-73f4d03a1a4c",
              "color": "#3f09e2",
              "distance": 2121.450689846222,
              "numSegments": 4,
              "properties": {}
            }
          ],
          "units": "meters"
        }
      }
    ],
    "type": "FeatureCollection"
  }"##

set_option maxRecDepth 100000 in
example : refused (geoDecodeText gen (utf8 invalidRouteGeometry)) = true := by
  rw [geo_text, show invalidRouteGeometry = String.ofList _ from rfl, String.toList_ofList]
  decide +kernel

/-- geojson/testdata/invalid_track_info.geojson -/
def invalidTrackInfo : String := r##"{
    "features": [
      {
        "type": "Feature",
        "geometry": {
          "type": "GeometryCollection",
          "geometries": [
            {
              "type": "Polygon",
              "coordinates": [
                [
                  [
                    106.45792276464522,
                    29.533628561797286
                  ],
                  [
                    106.45792276464522,
                    29.529399791830542
                  ],
                  [
                    106.46334808393323,
                    29.529399791830542
                  ],
                  [
                    106.46334808393323,
                    29.533628561797286
                  ],
                  [
                    106.45792276464522,
                    29.533628561797286
                  ]
                ]
              ]
            },
            {
              "type": "LineString",
              "coordinates": [
                [
                  106.45688223543743,
                  29.52481100757835
                ],
                [
                  106.46224152558176,
                  29.528509455345258
                ]
              ]
            }
          ]
        },
        "properties": {
          "color": "#9d031c",
          "distance": 2652.039495805213,
          "numTracks": 2,
          "routeID": "5a5a1a02-3882-4e9a-aa04-6ec8aed004e9",
          "units": "meters"
        }
      },
      {
        "type": "Feature",
        "geometry": {
          "type": "LineString",
          "coordinates": [
            [
              106.45688223543743,
              29.52481100757835
            ],
            [
              106.46224152558176,
              29.528509455345258
            ]
          ]
        },
        "properties": {
          "color": "#a40a72",
          "distance": 661.8154626014809,
          "numTracks": 1,
          "routeID": "2e64af89-fdd0-4802-94de-7951c02aa112",
          "units": "meters"
        }
      },
      {
        "type": "Feature",
        "geometry": {
          "type": "Polygon",
          "coordinates": [
            [
              [
                106.46572166112287,
                29.533628561797286
              ],
              [
                106.46572166112287,
                29.52910475476996
              ],
              [
                106.47148606286629,
                29.52910475476996
              ],
              [
                106.47148606286629,
                29.533628561797286
              ],
              [
                106.46572166112287,
                29.533628561797286
              ]
            ]
          ]
        },
        "properties": {
          "color": "#ab0911",
          "distance": 2121.450689846222,
          "numTracks": 1,
          "routeID": "80d7893e-8126-4a63-b32e-f736436ad41c",
          "units": "meters"
        }
      }
    ],
    "type": "FeatureCollection"
  }"##

set_option maxRecDepth 100000 in
example : refused (geoDecodeText gen (utf8 invalidTrackInfo)) = true := by
  rw [geo_text, show invalidTrackInfo = String.ofList _ from rfl, String.toList_ofList]
  decide +kernel

/-- geojson/testdata/invalid_line_string.geojson -/
def invalidLineString : String := r##"{
    "type": "FeatureCollection",
    "features": [
      {
        "type": "Feature",
        "properties": {},
        "geometry": {
          "type": "LineString",
          "coordinates": [
            [
              -101.744384,
              39.32155
            ]
          ]
        }
      }
    ]
  }"##

set_option maxRecDepth 100000 in
example : refused (geoDecodeText gen (utf8 invalidLineString)) = true := by
  rw [geo_text, show invalidLineString = String.ofList _ from rfl, String.toList_ofList]
  decide +kernel

/-- geojson/testdata/invalid_multilinestring.geojson -/
def invalidMultilinestring : String := r##"{
    "type": "FeatureCollection",
    "features": [
      {
        "type": "Feature",
        "properties": {},
        "geometry": {
          "type": "MultiLineString",
          "coordinates": [
            [
              [
                -105.021443,
                39.578057
              ]
            ]
          ]
        }
      }
    ]
  }"##

set_option maxRecDepth 100000 in
example : refused (geoDecodeText gen (utf8 invalidMultilinestring)) = true := by
  rw [geo_text, show invalidMultilinestring = String.ofList _ from rfl, String.toList_ofList]
  decide +kernel

/-- geojson/testdata/line_string.geojson -/
def lineString : String := r##"{
    "type": "FeatureCollection",
    "features": [
      {
        "type": "Feature",
        "properties": {},
        "geometry": {
          "type": "LineString",
          "coordinates": [
            [
              -101.744384,
              39.32155
            ],
            [
              -101.552124,
              39.330048
            ],
            [
              -101.403808,
              39.330048
            ],
            [
              -101.332397,
              39.364032
            ],
            [
              -101.041259,
              39.368279
            ],
            [
              -100.975341,
              39.304549
            ],
            [
              -100.914916,
              39.245016
            ],
            [
              -100.843505,
              39.164141
            ],
            [
              -100.805053,
              39.104488
            ],
            [
              -100.491943,
              39.100226
            ],
            [
              -100.437011,
              39.095962
            ],
            [
              -100.338134,
              39.095962
            ],
            [
              -100.195312,
              39.027718
            ],
            [
              -100.008544,
              39.010647
            ],
            [
              -99.865722,
              39.00211
            ],
            [
              -99.684448,
              38.972221
            ],
            [
              -99.51416,
              38.929502
            ],
            [
              -99.382324,
              38.920955
            ],
            [
              -99.321899,
              38.895308
            ],
            [
              -99.113159,
              38.869651
            ],
            [
              -99.0802,
              38.85682
            ],
            [
              -98.822021,
              38.85682
            ],
            [
              -98.448486,
              38.848264
            ],
            [
              -98.206787,
              38.848264
            ],
            [
              -98.020019,
              38.878204
            ],
            [
              -97.635498,
              38.873928
            ]
          ]
        }
      }
    ]
  }"##

set_option maxRecDepth 100000 in
example : accepted (geoDecodeText gen (utf8 lineString)) (fun rs => numTracks rs == [1]) = true := by
  rw [geo_text, show lineString = String.ofList _ from rfl, String.toList_ofList]
  decide +kernel

/-- geojson/testdata/multipoint.geojson -/
def multipoint : String := r##"{
    "type": "FeatureCollection",
    "features": [
      {
        "type": "Feature",
        "properties": {},
        "geometry": {
          "type": "MultiPoint",
          "coordinates": [
            [
              -105.01621,
              39.57422
            ],
            [
              -80.666513,
              35.053994
            ]
          ]
        }
      }
    ]
  }"##

set_option maxRecDepth 100000 in
example : accepted (geoDecodeText gen (utf8 multipoint)) (fun rs => numTracks rs == [1]) = true := by
  rw [geo_text, show multipoint = String.ofList _ from rfl, String.toList_ofList]
  decide +kernel

/-- geojson/testdata/collection.geojson -/
def collection : String := r##"{
    "type": "FeatureCollection",
    "features": [
      {
        "type": "Feature",
        "properties": {},
        "geometry": {
          "type": "GeometryCollection",
          "geometries": [
            {
              "type": "Polygon",
              "coordinates": [
                [
                  [
                    -80.664582,
                    35.044965
                  ],
                  [
                    -80.663874,
                    35.04428
                  ],
                  [
                    -80.662586,
                    35.04558
                  ],
                  [
                    -80.663444,
                    35.046036
                  ],
                  [
                    -80.664582,
                    35.044965
                  ]
                ]
              ]
            },
            {
              "type": "LineString",
              "coordinates": [
                [
                  -80.662372,
                  35.059509
                ],
                [
                  -80.662693,
                  35.059263
                ],
                [
                  -80.662844,
                  35.05893
                ],
                [
                  -80.66308,
                  35.058332
                ],
                [
                  -80.663595,
                  35.057753
                ],
                [
                  -80.663874,
                  35.057401
                ],
                [
                  -80.66441,
                  35.057033
                ],
                [
                  -80.664861,
                  35.056787
                ],
                [
                  -80.665419,
                  35.056506
                ],
                [
                  -80.665633,
                  35.056312
                ],
                [
                  -80.666019,
                  35.055891
                ],
                [
                  -80.666191,
                  35.055452
                ],
                [
                  -80.666191,
                  35.055171
                ],
                [
                  -80.666255,
                  35.05489
                ],
                [
                  -80.666213,
                  35.054222
                ],
                [
                  -80.666213,
                  35.053924
                ],
                [
                  -80.665955,
                  35.052905
                ],
                [
                  -80.665698,
                  35.052044
                ],
                [
                  -80.665504,
                  35.051482
                ],
                [
                  -80.665762,
                  35.050481
                ],
                [
                  -80.66617,
                  35.049725
                ],
                [
                  -80.666513,
                  35.049286
                ],
                [
                  -80.666921,
                  35.048531
                ],
                [
                  -80.667006,
                  35.048215
                ],
                [
                  -80.667071,
                  35.047775
                ],
                [
                  -80.667049,
                  35.047389
                ],
                [
                  -80.666964,
                  35.046985
                ],
                [
                  -80.666813,
                  35.046353
                ],
                [
                  -80.666599,
                  35.045966
                ],
                [
                  -80.666406,
                  35.045615
                ],
                [
                  -80.665998,
                  35.045193
                ],
                [
                  -80.665526,
                  35.044877
                ],
                [
                  -80.664989,
                  35.044543
                ],
                [
                  -80.664496,
                  35.044174
                ],
                [
                  -80.663852,
                  35.043876
                ],
                [
                  -80.663037,
                  35.043717
                ]
              ]
            }
          ]
        }
      }
    ]
  }"##

set_option maxRecDepth 100000 in
example : accepted (geoDecodeText gen (utf8 collection)) (fun rs => numTracks rs == [2]) = true := by
  rw [geo_text, show collection = String.ofList _ from rfl, String.toList_ofList]
  decide +kernel

/-- geojson/testdata/multipolygon.geojson -/
def multipolygon : String := r##"{
    "type": "FeatureCollection",
    "features": [
      {
        "type": "Feature",
        "properties": {},
        "geometry": {
          "type": "MultiPolygon",
          "coordinates": [
            [
              [
                [
                  107,
                  7
                ],
                [
                  108,
                  7
                ],
                [
                  108,
                  8
                ],
                [
                  107,
                  8
                ],
                [
                  107,
                  7
                ]
              ]
            ],
            [
              [
                [
                  100,
                  0
                ],
                [
                  101,
                  0
                ],
                [
                  101,
                  1
                ],
                [
                  100,
                  1
                ],
                [
                  100,
                  0
                ]
              ]
            ]
          ]
        }
      }
    ]
  }"##

set_option maxRecDepth 100000 in
example : accepted (geoDecodeText gen (utf8 multipolygon)) (fun rs => numTracks rs == [2]) = true := by
  rw [geo_text, show multipolygon = String.ofList _ from rfl, String.toList_ofList]
  decide +kernel

/-- geojson/testdata/multiline_string.geojson -/
def multilineString : String := r##"{
    "type": "FeatureCollection",
    "features": [
      {
        "type": "Feature",
        "properties": {},
        "geometry": {
          "type": "MultiLineString",
          "coordinates": [
            [
              [
                -105.021443,
                39.578057
              ],
              [
                -105.021507,
                39.577809
              ],
              [
                -105.021572,
                39.577495
              ],
              [
                -105.021572,
                39.577164
              ],
              [
                -105.021572,
                39.577032
              ],
              [
                -105.021529,
                39.576784
              ]
            ],
            [
              [
                -105.019898,
                39.574997
              ],
              [
                -105.019598,
                39.574898
              ],
              [
                -105.019061,
                39.574782
              ]
            ],
            [
              [
                -105.017173,
                39.574402
              ],
              [
                -105.01698,
                39.574385
              ],
              [
                -105.016636,
                39.574385
              ],
              [
                -105.016508,
                39.574402
              ],
              [
                -105.01595,
                39.57427
              ]
            ],
            [
              [
                -105.014276,
                39.573972
              ],
              [
                -105.014126,
                39.574038
              ],
              [
                -105.013825,
                39.57417
              ],
              [
                -105.01331,
                39.574452
              ]
            ]
          ]
        }
      }
    ]
  }"##

set_option maxRecDepth 100000 in
example : accepted (geoDecodeText gen (utf8 multilineString)) (fun rs => numTracks rs == [4]) = true := by
  rw [geo_text, show multilineString = String.ofList _ from rfl, String.toList_ofList]
  decide +kernel

/-- geojson/testdata/route_line_string.geojson -/
def routeLineString : String := r##"{
    "features": [
      {
        "type": "Feature",
        "geometry": {
          "type": "LineString",
          "coordinates": [
            [
              106.46609599041324,
              29.528233799305895
            ],
            [
              106.47185128721964,
              29.526671734226028
            ],
            [
              106.46691440417999,
              29.523317807121842
            ]
          ]
        },
        "properties": {
          "color": "#2dd049",
          "distance": 1189.315916641673,
          "foo": "bar",
          "isActive": true,
          "numTracks": 1,
          "routeID": "9c41a8f1-49e2-46c5-a978-898d40ffada1",
          "speed": 1.2,
          "tracksInfo": [
            {
              "trackID": "1acad315-6618-4edd-8619-d72a64308564",
              "color": "#5935dd",
              "distance": 1189.315916641673,
              "numSegments": 2,
              "properties": {
                "foo": "bar"
              }
            }
          ],
          "units": "meters"
        }
      }
    ],
    "type": "FeatureCollection"
  }"##

set_option maxRecDepth 100000 in
example : accepted (geoDecodeText gen (utf8 routeLineString)) (fun rs => look rs == [("9c41a8f1-49e2-46c5-a978-898d40ffada1", "#2dd049", 1189,
    [("1acad315-6618-4edd-8619-d72a64308564", "#5935dd", 1189, 2)])] &&
    rs.map (fun r => (r.props.getD []).length) == [3] && rs.map (fun r => r.tracks.map fun t => (t.props.getD []).length) == [[1]]) = true := by
  rw [geo_text, show routeLineString = String.ofList _ from rfl, String.toList_ofList]
  decide +kernel

/-- geojson/testdata/routes.geojson -/
def routes : String := r##"{
    "features": [
      {
        "type": "Feature",
        "geometry": {
          "type": "GeometryCollection",
          "geometries": [
            {
              "type": "Polygon",
              "coordinates": [
                [
                  [
                    106.45792276464522,
                    29.533628561797286
                  ],
                  [
                    106.45792276464522,
                    29.529399791830542
                  ],
                  [
                    106.46334808393323,
                    29.529399791830542
                  ],
                  [
                    106.46334808393323,
                    29.533628561797286
                  ],
                  [
                    106.45792276464522,
                    29.533628561797286
                  ]
                ]
              ]
            },
            {
              "type": "LineString",
              "coordinates": [
                [
                  106.45688223543743,
                  29.52481100757835
                ],
                [
                  106.46224152558176,
                  29.528509455345258
                ]
              ]
            }
          ]
        },
        "properties": {
          "color": "#9d031c",
          "distance": 2652.039495805213,
          "numTracks": 2,
          "routeID": "5a5a1a02-3882-4e9a-aa04-6ec8aed004e9",
          "tracksInfo": [
            {
              "trackID": "46b275c6-c3a5-4f9f-b6d6-c25ebc077311",
              "color": "#61aa2c",
              "distance": 1990.2240332037318,
              "numSegments": 4,
              "properties": {"foo":"bar", "speed": 3}
            },
            {
              "trackID": "dfcedae9-d8bd-4285-9aef-e602a25014f9",
              "color": "#aa442f",
              "distance": 661.8154626014809,
              "numSegments": 1,
              "properties": {}
            }
          ],
          "units": "meters"
        }
      },
      {
        "type": "Feature",
        "geometry": {
          "type": "LineString",
          "coordinates": [
            [
              106.45688223543743,
              29.52481100757835
            ],
            [
              106.46224152558176,
              29.528509455345258
            ]
          ]
        },
        "properties": {
          "color": "#a40a72",
          "distance": 661.8154626014809,
          "numTracks": 1,
          "routeID": "2e64af89-fdd0-4802-94de-7951c02aa112",
          "tracksInfo": [
            {
              "trackID": "dfcedae9-d8bd-4285-9aef-e602a25014f9",
              "color": "#aa442f",
              "distance": 661.8154626014809,
              "numSegments": 1,
              "properties": {}
            }
          ],
          "units": "meters"
        }
      },
      {
        "type": "Feature",
        "geometry": {
          "type": "Polygon",
          "coordinates": [
            [
              [
                106.46572166112287,
                29.533628561797286
              ],
              [
                106.46572166112287,
                29.52910475476996
              ],
              [
                106.47148606286629,
                29.52910475476996
              ],
              [
                106.47148606286629,
                29.533628561797286
              ],
              [
                106.46572166112287,
                29.533628561797286
              ]
            ]
          ]
        },
        "properties": {
          "color": "#ab0911",
          "distance": 2121.450689846222,
          "numTracks": 1,
          "routeID": "80d7893e-8126-4a63-b32e-f736436ad41c",
          "tracksInfo": [
            {
              "trackID": "03a0448e-e83b-4ada-b32d-73f4d03a1a4c",
              "color": "#3f09e2",
              "distance": 2121.450689846222,
              "numSegments": 4,
              "properties": {}
            }
          ],
          "units": "meters"
        }
      }
    ],
    "type": "FeatureCollection"
  }"##

set_option maxRecDepth 100000 in
example : accepted (geoDecodeText gen (utf8 routes)) (fun rs => rs.length == 3 && (look rs).head? == some
    ("5a5a1a02-3882-4e9a-aa04-6ec8aed004e9", "#9d031c", 2652, [("46b275c6-c3a5-4f9f-b6d6-c25ebc077311", "#61aa2c", 1990, 4),
    ("46b275c6-c3a5-4f9f-b6d6-c25ebc077311", "#61aa2c", 661, 1)]) &&
    rs.head?.bind (fun r => r.tracks.head?.map fun t => ((t.props.getD []).length, PMap.getString (t.props.getD []) "foo",
      PMap.getFloat (t.props.getD []) "speed")) == some (2, ("bar", true), (lit 3, true))) = true := by
  rw [geo_text, show routes = String.ofList _ from rfl, String.toList_ofList]
  decide +kernel

end DocumentTest
end Conformance
end GpsGen
