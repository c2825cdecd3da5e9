import Verif.Model.Num
import Verif.Model.NumReal
import Verif.Model.Geo
import Verif.Model.Properties
import Verif.Model.Curve
import Verif.Model.Types
import Verif.Model.Route
import Verif.Model.Navigator
import Verif.Model.NavHistory
import Verif.Model.Browser
import Verif.Model.Clock
import Verif.Model.DevHistory
import Verif.Model.Device
import Verif.Model.DeviceRead
import Verif.Model.EachCountry
import Verif.Model.Examples
import Verif.Model.F64
import Verif.Model.F64Bits
import Verif.Model.GenRun
import Verif.Model.Generator
import Verif.Model.GeoJson
import Verif.Model.GeoText
import Verif.Model.GoTrig
import Verif.Model.Gpx
import Verif.Model.GpxCoord
import Verif.Model.Iterate
import Verif.Model.JsonText
import Verif.Model.Live
import Verif.Model.LockPanics
import Verif.Model.Locks
import Verif.Model.Loops
import Verif.Model.Machine
import Verif.Model.NavUpdate
import Verif.Model.NumX
import Verif.Model.Options
import Verif.Model.PacketBytes
import Verif.Model.Pointers
import Verif.Model.PropertyMaps
import Verif.Model.Random
import Verif.Model.RandomSource
import Verif.Model.RawText
import Verif.Model.Readme
import Verif.Model.Round64
import Verif.Model.Shared
import Verif.Model.SharedSensors
import Verif.Model.Slices
import Verif.Model.Snapshot
import Verif.Model.StateView
import Verif.Model.Strings
import Verif.Model.Wire
import Verif.Model.XmlText
import Verif.Conformance.Bytes
import Verif.Conformance.Device
import Verif.Conformance.Documents
import Verif.Conformance.Encoding
import Verif.Conformance.Fixture
import Verif.Conformance.GpxDocuments
import Verif.Conformance.Library
import Verif.Conformance.Navigator
import Verif.Conformance.Route
import Verif.Conformance.Types
import Verif.Lemmas.Basic
import Verif.Lemmas.Browser
import Verif.Lemmas.CurveDouble
import Verif.Lemmas.CurveFold
import Verif.Lemmas.CurveReal
import Verif.Lemmas.Demo
import Verif.Lemmas.DeviceAlike
import Verif.Lemmas.DeviceCore
import Verif.Lemmas.DeviceNext
import Verif.Lemmas.DevicePub
import Verif.Lemmas.DeviceReal
import Verif.Lemmas.DeviceRound
import Verif.Lemmas.DeviceSafe
import Verif.Lemmas.DeviceTwin
import Verif.Lemmas.ExampleText
import Verif.Lemmas.F64Error
import Verif.Lemmas.F64Order
import Verif.Lemmas.Frame
import Verif.Lemmas.GenInv
import Verif.Lemmas.GenMeasure
import Verif.Lemmas.GeoJson
import Verif.Lemmas.GeoReal
import Verif.Lemmas.GeoText
import Verif.Lemmas.Gpx
import Verif.Lemmas.HaversineError
import Verif.Lemmas.Held
import Verif.Lemmas.JsonF64
import Verif.Lemmas.JsonText
import Verif.Lemmas.Jump
import Verif.Lemmas.Lists
import Verif.Lemmas.LockOrder
import Verif.Lemmas.LockPanics
import Verif.Lemmas.LoopOutcome
import Verif.Lemmas.Moves
import Verif.Lemmas.Near
import Verif.Lemmas.NearBearing
import Verif.Lemmas.NearDest
import Verif.Lemmas.NearGeo
import Verif.Lemmas.NearLine
import Verif.Lemmas.Nearest
import Verif.Lemmas.New
import Verif.Lemmas.NextLocation
import Verif.Lemmas.Preserve
import Verif.Lemmas.Round64
import Verif.Lemmas.RoundTrip
import Verif.Lemmas.Safety
import Verif.Lemmas.Seconds
import Verif.Lemmas.SensorReal
import Verif.Lemmas.SharedSensors
import Verif.Lemmas.SkipOffline
import Verif.Lemmas.Sphere
import Verif.Lemmas.Sums
import Verif.Lemmas.Toy
import Verif.Lemmas.ToyF64
import Verif.Lemmas.Trip
import Verif.Lemmas.TripTime
import Verif.Lemmas.Versions
import Verif.Lemmas.WellFormed
import Verif.Lemmas.Wire
import Verif.Lemmas.WireMsgs
import Verif.Lemmas.WireParsed
import Verif.Lemmas.World
import Verif.Lemmas.XmlText
import Verif.Theorems.C01
import Verif.Theorems.C02
import Verif.Theorems.C03
import Verif.Theorems.C04
import Verif.Theorems.C05
import Verif.Theorems.C06
import Verif.Theorems.C07
import Verif.Theorems.C08
import Verif.Theorems.C09
import Verif.Theorems.C10
import Verif.Theorems.C100
import Verif.Theorems.C101
import Verif.Theorems.C102
import Verif.Theorems.C102Double
import Verif.Theorems.C103
import Verif.Theorems.C104
import Verif.Theorems.C105
import Verif.Theorems.C106
import Verif.Theorems.C107
import Verif.Theorems.C108
import Verif.Theorems.C109
import Verif.Theorems.C109Model
import Verif.Theorems.C11
import Verif.Theorems.C110
import Verif.Theorems.C12
import Verif.Theorems.C12Double
import Verif.Theorems.C13
import Verif.Theorems.C14
import Verif.Theorems.C15
import Verif.Theorems.C16
import Verif.Theorems.C17
import Verif.Theorems.C18
import Verif.Theorems.C19
import Verif.Theorems.C20
import Verif.Theorems.C21
import Verif.Theorems.C22
import Verif.Theorems.C23
import Verif.Theorems.C24
import Verif.Theorems.C24GeoJSON
import Verif.Theorems.C25
import Verif.Theorems.C26
import Verif.Theorems.C27
import Verif.Theorems.C27Double
import Verif.Theorems.C28
import Verif.Theorems.C28Device
import Verif.Theorems.C28Double
import Verif.Theorems.C29
import Verif.Theorems.C30
import Verif.Theorems.C31
import Verif.Theorems.C31Double
import Verif.Theorems.C32
import Verif.Theorems.C33
import Verif.Theorems.C33Double
import Verif.Theorems.C34
import Verif.Theorems.C34Double
import Verif.Theorems.C35
import Verif.Theorems.C36
import Verif.Theorems.C37
import Verif.Theorems.C38
import Verif.Theorems.C39
import Verif.Theorems.C40
import Verif.Theorems.C41
import Verif.Theorems.C42
import Verif.Theorems.C43
import Verif.Theorems.C44
import Verif.Theorems.C45
import Verif.Theorems.C46
import Verif.Theorems.C46Double
import Verif.Theorems.C47
import Verif.Theorems.C48
import Verif.Theorems.C49
import Verif.Theorems.C49Double
import Verif.Theorems.C50
import Verif.Theorems.C50Countries
import Verif.Theorems.C50Double
import Verif.Theorems.C51
import Verif.Theorems.C52
import Verif.Theorems.C52Settles
import Verif.Theorems.C53
import Verif.Theorems.C54
import Verif.Theorems.C55
import Verif.Theorems.C56
import Verif.Theorems.C57
import Verif.Theorems.C58
import Verif.Theorems.C59
import Verif.Theorems.C60
import Verif.Theorems.C60Double
import Verif.Theorems.C61
import Verif.Theorems.C62
import Verif.Theorems.C63
import Verif.Theorems.C64
import Verif.Theorems.C65
import Verif.Theorems.C66
import Verif.Theorems.C67
import Verif.Theorems.C68
import Verif.Theorems.C69
import Verif.Theorems.C69Documents
import Verif.Theorems.C69Strings
import Verif.Theorems.C70
import Verif.Theorems.C71
import Verif.Theorems.C72
import Verif.Theorems.C73
import Verif.Theorems.C74
import Verif.Theorems.C75
import Verif.Theorems.C76
import Verif.Theorems.C76Double
import Verif.Theorems.C77
import Verif.Theorems.C78
import Verif.Theorems.C79
import Verif.Theorems.C80
import Verif.Theorems.C81
import Verif.Theorems.C82
import Verif.Theorems.C83
import Verif.Theorems.C84
import Verif.Theorems.C85
import Verif.Theorems.C86
import Verif.Theorems.C86Grammar
import Verif.Theorems.C87
import Verif.Theorems.C88
import Verif.Theorems.C88Double
import Verif.Theorems.C89
import Verif.Theorems.C89Double
import Verif.Theorems.C89Grammar
import Verif.Theorems.C90
import Verif.Theorems.C91
import Verif.Theorems.C92
import Verif.Theorems.C93
import Verif.Theorems.C94
import Verif.Theorems.C95
import Verif.Theorems.C95Double
import Verif.Theorems.C95Real
import Verif.Theorems.C96
import Verif.Theorems.C96Real
import Verif.Theorems.C97
import Verif.Theorems.C97Double
import Verif.Theorems.C97Real
import Verif.Theorems.C98
import Verif.Theorems.C99
import Verif.Theorems.C99Jump
