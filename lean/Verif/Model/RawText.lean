import Verif.Model.PacketBytes
/-!
# Text that is not UTF-8

Elsewhere in the model strings are valid UTF-8. A Go string holds any bytes. `proto.Marshal` refuses a message with a
`string` field that is not valid UTF-8 (protocol buffers language guide), and no method of a device looks at the encoding.

Simplification: only the text of the device message is kept, and what is left in the buffer after an error is a parameter.
-/

namespace GpsGen

/-- A Go string. -/
abbrev GoStr := Bytes

/-- `utf8.ValidString`. -/
def GoStr.valid (s : GoStr) : Bool := (String.fromUTF8? ⟨s.toArray⟩).isSome

/-- The text of a `proto.Device` message that clients choose, proto/gpsgen.proto:8-124. -/
structure RawTexts where
  id : GoStr
  userId : GoStr
  model : GoStr
  description : GoStr
  color : GoStr
  routeId : GoStr
  trackId : GoStr
  /-- id and name -/
  sensors : List (GoStr × GoStr)
  /-- id, colour and the tracks' ids and colours -/
  routes : List (GoStr × GoStr × List (GoStr × GoStr))
  deriving DecidableEq, Repr

/-- All string fields of the message. -/
def RawTexts.all (t : RawTexts) : List GoStr :=
  [t.id, t.userId, t.model, t.description, t.color, t.routeId, t.trackId] ++
    t.sensors.flatMap (fun s => [s.1, s.2]) ++
    t.routes.flatMap (fun r => [r.1, r.2.1] ++ r.2.2.flatMap (fun k => [k.1, k.2]))

/-- device.go:124-129 `SetUserID`; the error is always nil. -/
def RawTexts.setUserID (t : RawTexts) (s : GoStr) : RawTexts × Option Err := ({ t with userId := s }, none)

/-- device.go:132-136 `SetDescription`. -/
def RawTexts.setDescription (t : RawTexts) (s : GoStr) : RawTexts := { t with description := s }

/-- device.go:112-121 `SetModel` with types/model.go:34-42 `NewModel`. -/
def RawTexts.setModel (t : RawTexts) (s : GoStr) : RawTexts × Option Err :=
  if s.length < 3 then (t, some .modelTooShort)
  else if s.length > 64 then (t, some .modelTooLong)
  else ({ t with model := s }, none)

/-- `enc.MarshalAppend(buf, pck)` for the devices of a slice: an error if any text is not valid. -/
def marshalFails (ds : List RawTexts) : Bool := ds.any fun t => t.all.any fun s => !s.valid

/-- What a worker calls. -/
inductive Handed where
  | nothing
  | error
  | packet (data : Bytes)
  deriving DecidableEq, Repr

/-- generator.go:293-300: `data` is what `MarshalAppend` returns, complete unless there is an error. -/
def handOver (onError onPacket : Bool) (ds : List RawTexts) (data : Bytes) : Handed :=
  if marshalFails ds && onError then .error
  else if onPacket then .packet data
  else .nothing

end GpsGen
