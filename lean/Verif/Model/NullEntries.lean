import Verif.Model.Anonymize
import Verif.Model.File
/-!
# Lists of messages in which an entry may be nil

A list of messages in a hand-built message is a Go slice of pointers, any of which may be nil; the parsers
never leave one. Here the lists of a driver card are lists of options, `none` being a nil pointer. A getter
of a nil message returns the zero value of its field, so code that never looks at the pointer itself treats
a nil entry as an empty message (`r.getD …` below); a setter of a nil message panics.

The message types only differ from the ones in the other files of the model in these lists.
-/

namespace Tacho


/-- The zero values a nil `*ddv1.PlaceRecord` gives to its getters. -/
def emptyPlace : PlaceRecord := {
  rawData := none, entryTime := none, entryType := 0, unrecognizedEntryType := none, country := 0
  unrecognizedCountry := none, region := [], odometerKm := 0 }

/-- The zero values of a nil `*ddv1.PlaceRecordG2`. -/
def emptyPlaceG2 : PlaceRecordG2 := { base := emptyPlace, gnss := none }

/-- The zero values of a nil `*ddv1.CardVehicleRecord`. -/
def emptyVehicle : CardVehicleRecord := {
  rawData := none, odometerBegin := 0, odometerEnd := 0, firstUse := none, lastUse := none, registration := none, counter := none }

/-- The zero values of a nil `*ddv1.CardVehicleRecordG2`. -/
def emptyVehicleG2 : CardVehicleRecordG2 := { base := emptyVehicle, vin := [] }

/-- The zero values of a nil `*cardv1.EventsData_Record` or `*cardv1.FaultsData_Record`. -/
def emptyEvent : EventRecord := {
  valid := false, rawData := none, type := 0, beginTime := none, endTime := none, registration := none }

/-- The zero values of a nil `*ddv1.ActivityChangeInfo`. -/
def emptyChange : ActivityChangeInfo := {
  rawData := none, slot := 0, crew := false, inserted := false, activity := 0, timeOfChangeMinutes := 0 }

/-- The zero values of a nil `*cardv1.RawCardFile_Record`. (Its content type, which the writer does not
look at, is unspecified, for which the model has no value.) -/
def emptyRawRec : RawRec := {
  tag := 0, length := 0, value := [], contentType := .data, generation := .unspecified, file := .unspecified }

/-! ## Writing -/

/-- `AppendPlaceRecord`, internal/dd/place_record.go:79-129: getters only. -/
def appendPlaceRecordN (dst : Bytes) (r : Option PlaceRecord) : Res Bytes := appendPlaceRecord dst (r.getD emptyPlace)

/-- `appendPlaces`, internal/card/places.go:80-129. -/
def appendPlacesN (dst : Bytes) (p : Option (RecordFile (Option PlaceRecord))) : Res Bytes :=
  match p with
  | none => .ok dst
  | some p =>
    let raw := p.rawData.getD []
    if raw.length = 1 + p.records.length * 10 then do
      let canvas := paint raw 0 1 [i2b p.newest]
      let canvas ← paintEach appendPlaceRecordN 10 canvas 1 p.records
      return dst ++ canvas
    else appendEachNew appendPlaceRecordN (dst ++ [i2b p.newest]) p.records

/-- `AppendPlaceRecordG2`, internal/dd/place_record_g2.go:87-144: getters only. -/
def appendPlaceRecordG2N (dst : Bytes) (r : Option PlaceRecordG2) : Res Bytes := appendPlaceRecordG2 dst (r.getD emptyPlaceG2)

/-- `appendPlacesG2`, internal/card/places_g2.go:81-130. -/
def appendPlacesG2N (dst : Bytes) (v : Option (RecordFile (Option PlaceRecordG2))) : Res Bytes :=
  appendRecordFile2 appendPlaceRecordG2N 21 dst v

/-- `appendVehiclesUsed`, internal/card/vehicles_used.go:77-126, with `AppendCardVehicleRecord`,
internal/dd/card_vehicle_record.go:85-141: getters only. -/
def appendVehiclesUsedN (dst : Bytes) (v : Option (RecordFile (Option CardVehicleRecord))) : Res Bytes :=
  appendRecordFile2 (fun d r => appendCardVehicleRecord d (r.getD emptyVehicle)) 31 dst v

/-- `appendVehiclesUsedG2`, internal/card/vehicles_used_g2.go:77-126, with `AppendCardVehicleRecordG2`,
internal/dd/card_vehicle_record_g2.go:92-158: getters only. -/
def appendVehiclesUsedG2N (dst : Bytes) (v : Option (RecordFile (Option CardVehicleRecordG2))) : Res Bytes :=
  appendRecordFile2 (fun d r => appendCardVehicleRecordG2 d (r.getD emptyVehicleG2)) 48 dst v

/-- `appendEventsData`, internal/card/events.go:171-182, `appendFaultsData`, faults.go:171-182; the record
writers (events.go:196-221, faults.go:196-221) use getters only. -/
def appendEventsDataN (dst : Bytes) (rs : List (Option EventRecord)) : Res Bytes :=
  appendEach (fun d r => appendEventRecord d (r.getD emptyEvent)) dst rs

/-- `appendCardSpecificConditions`, internal/card/specific_conditions.go:64-107. -/
def appendSpecificConditionsN (dst : Bytes) (c : Option (RecordFile (Option SpecificConditionRecord))) : Res Bytes :=
  match c with
  | none => .ok dst
  | some c =>
    let raw := c.rawData.getD []
    if raw.length = c.records.length * 5 then do
      let canvas ← paintEach appendSpecificConditionRecord 5 raw 0 c.records
      return dst ++ canvas
    else appendEach appendSpecificConditionRecord dst c.records

/-- The painting loop of `appendCardSpecificConditionsG2`, specific_conditions_g2.go:90-105; `none` is
`goto fallback`. -/
def paintConditionsG2N (canvas : Bytes) (off : Nat) : List (Option SpecificConditionRecord) → Res (Option Bytes)
  | [] => .ok (some canvas)
  | r :: rs =>
    if off + 5 > canvas.length then .ok none
    else do
      let b ← appendSpecificConditionRecord [] r
      if b.length ≠ 5 then .err "invalid specific condition record size"
      paintConditionsG2N (paint canvas off 5 b) (off + 5) rs

/-- `appendCardSpecificConditionsG2`, internal/card/specific_conditions_g2.go:70-126. -/
def appendSpecificConditionsG2N (dst : Bytes) (c : Option (RecordFile (Option SpecificConditionRecord))) : Res Bytes :=
  match c with
  | none => .ok dst
  | some c => do
    let raw := c.rawData.getD []
    let fallback : Res Bytes := appendEach appendSpecificConditionRecord (dst ++ beBytes 2 (low 16 c.newest)) c.records
    if raw.length > 0 then do
      let _ ← sl? raw 0 2
      match ← paintConditionsG2N (paint raw 0 2 (beBytes 2 (low 16 c.newest))) 2 c.records with
      | some canvas => return dst ++ canvas
      | none => fallback
    else fallback

/-- `appendCardGnssPlaces`, internal/card/gnss_places.go:172-193; `appendGNSSAccumulatedDrivingRecord`
(201-227) returns `dst` for a nil record (lines 202-204). -/
def appendGnssPlacesN (dst : Bytes) (g : Option (Int × List (Option GnssPlaceEntry))) : Res Bytes :=
  match g with
  | none => .ok dst
  | some (newest, rs) =>
    appendEach (fun d r => match r with | none => .ok d | some r => appendGnssPlaceEntry d r) (dst ++ beBytes 2 (low 16 newest)) rs

/-- `appendCardVehicleUnitsUsed`, internal/card/vehicle_units_used.go:172-193; `appendCardVehicleUnitRecord`
(202-247) returns `dst` for a nil record (lines 203-205). -/
def appendVehicleUnitsUsedN (dst : Bytes) (v : Option (Int × List (Option VehicleUnitRecord))) : Res Bytes :=
  match v with
  | none => .ok dst
  | some (newest, rs) =>
    appendEach (fun d r => match r with | none => .ok d | some r => appendVehicleUnitRecord d r) (dst ++ beBytes 2 (low 16 newest)) rs

/-- `DriverActivityData_DailyRecord`. -/
structure DailyRecordN where
  valid : Bool
  rawData : Option Bytes
  prevLength : Int
  recordLength : Int
  date : Option Timestamp
  presenceCounter : Option BcdString
  dayDistance : Int
  changes : List (Option ActivityChangeInfo)
  deriving Repr, DecidableEq

/-- The zero values of a nil `*cardv1.DriverActivityData_DailyRecord`. -/
def emptyDayN : DailyRecordN := {
  valid := false, rawData := none, prevLength := 0, recordLength := 0, date := none, presenceCounter := none, dayDistance := 0, changes := [] }

/-- `DriverActivityData`. -/
structure DriverActivityDataN where
  oldest : Int
  newest : Int
  rawData : Option Bytes
  records : List (Option DailyRecordN)
  deriving Repr, DecidableEq

/-- `calculateRecordSize`, activity.go:443-462. -/
def calculateRecordSizeN (r : DailyRecordN) : Nat :=
  if r.recordLength > 0 then r.recordLength.toNat else 12 + r.changes.length * 2

/-- `marshalRecordWithHeader`, activity.go:466-503; `AppendActivityChangeInfo`
(internal/dd/activity_change_info.go:105-143) uses getters only. -/
def marshalRecordWithHeaderN (r : DailyRecordN) (prev cur : Nat) : Res Bytes := do
  let buf := beBytes 2 prev ++ beBytes 2 cur
  let buf ← appendTimeReal buf r.date
  let buf ← appendBcdString buf r.presenceCounter
  let buf := buf ++ beBytes 2 (low 16 r.dayDistance)
  let buf ← appendEach (fun d c => appendActivityChangeInfo d (c.getD emptyChange)) buf r.changes
  return if buf.length < cur then buf ++ zeros (cur - buf.length) else buf

/-- First pass of `buildCyclicBufferFromRecords`, activity.go:379-399. -/
def recordSizesN : List (Option DailyRecordN) → Res (List Nat)
  | [] => .ok []
  | r :: rs => do
    let r := r.getD emptyDayN
    let s ← (if r.valid then .ok (calculateRecordSizeN r)
      else if (r.rawData.getD []).length > 0 then .ok (r.rawData.getD []).length
      else .err "invalid record has no raw data")
    let ss ← recordSizesN rs
    return s :: ss

/-- Second pass, activity.go:411-435. -/
def writeRecordsN (buffer : Bytes) (pos prev : Nat) : List (Option DailyRecordN × Nat) → Res Bytes
  | [] => .ok buffer
  | (r, size) :: rest => do
    let r := r.getD emptyDayN
    let b ← (if r.valid then marshalRecordWithHeaderN r prev size else .ok (r.rawData.getD []))
    let _ ← from? buffer pos
    writeRecordsN (paint buffer pos (buffer.length - pos) b) (pos + size) size rest

/-- `appendDriverActivity`, activity.go:229-252, with `buildCyclicBufferFromRecords`, activity.go:374-438. -/
def appendDriverActivityN (dst : Bytes) (a : Option DriverActivityDataN) : Res Bytes :=
  match a with
  | none => .ok dst
  | some a => do
    let dst := dst ++ beBytes 2 (low 16 a.oldest) ++ beBytes 2 (low 16 a.newest)
    if (a.rawData.getD []).length > 0 then return dst ++ a.rawData.getD []
    else
      let b ← (if a.records.length = 0 then .ok [] else do
        let sizes ← recordSizesN a.records
        writeRecordsN (zeros sizes.sum) 0 0 (a.records.zip sizes))
      return dst ++ b

/-! ## The card -/

/-- `DriverCardFile_Tachograph` (card/v1/driver_card_file.proto). -/
structure TachographN where
  applicationIdentification : Option (Signed AppId) := none
  identification : Option (Signed Identification) := none
  drivingLicenceInfo : Option (Signed DrivingLicenceInfo) := none
  eventsData : Option (Signed (List (Option EventRecord))) := none
  faultsData : Option (Signed (List (Option EventRecord))) := none
  driverActivityData : Option (Signed DriverActivityDataN) := none
  vehiclesUsed : Option (Signed (RecordFile (Option CardVehicleRecord))) := none
  places : Option (Signed (RecordFile (Option PlaceRecord))) := none
  currentUsage : Option (Signed CurrentUsage) := none
  controlActivityData : Option (Signed ControlActivity) := none
  specificConditions : Option (Signed (RecordFile (Option SpecificConditionRecord))) := none
  cardDownload : Option CardDownload := none
  cardCertificate : Option RsaCert := none
  caCertificate : Option RsaCert := none

/-- `DriverCardFile_TachographG2` (card/v1/driver_card_file.proto). -/
structure TachographG2N where
  applicationIdentification : Option (Signed AppIdG2) := none
  identification : Option (Signed Identification) := none
  drivingLicenceInfo : Option (Signed DrivingLicenceInfo) := none
  eventsData : Option (Signed (List (Option EventRecord))) := none
  faultsData : Option (Signed (List (Option EventRecord))) := none
  driverActivityData : Option (Signed DriverActivityDataN) := none
  vehiclesUsed : Option (Signed (RecordFile (Option CardVehicleRecordG2))) := none
  places : Option (Signed (RecordFile (Option PlaceRecordG2))) := none
  currentUsage : Option (Signed CurrentUsage) := none
  controlActivityData : Option (Signed ControlActivity) := none
  specificConditions : Option (Signed (RecordFile (Option SpecificConditionRecord))) := none
  cardDownload : Option CardDownload := none
  vehicleUnitsUsed : Option (Signed (Int × List (Option VehicleUnitRecord))) := none
  gnssPlaces : Option (Signed (Int × List (Option GnssPlaceEntry))) := none
  applicationIdentificationV2 : Option (Signed AppIdV2) := none
  cardMaCertificate : Option EccCert := none
  cardSignCertificate : Option EccCert := none
  caCertificate : Option EccCert := none
  linkCertificate : Option EccCert := none

/-- `DriverCardFile` (card/v1/driver_card_file.proto). -/
structure DriverCardN where
  icc : Option Icc := none
  ic : Option Ic := none
  tachograph : Option TachographN := none
  tachographG2 : Option TachographG2N := none

/-- Steps 1-14 of `appendDriverCard`, internal/card/driver_card_file.go:628-711. -/
def appendGen1N (dst : Bytes) (card : DriverCardN) : Res Bytes := do
  let t := card.tachograph.getD {}
  let dst ← appendTlvUnsigned dst .icc card.icc appendIcc
  let dst ← appendTlvUnsigned dst .ic card.ic (fun d m => appendCardIc d (some m))
  let dst ← appendTlv dst .applicationIdentification t.applicationIdentification (fun d m => appendAppId d (some m.data))
  let dst ← appendTlv dst .drivingLicenceInfo t.drivingLicenceInfo (fun d m => appendDrivingLicenceInfo d (some m.data))
  let dst ← appendTlv dst .identification t.identification (fun d m => appendIdentification d m.data)
  let dst ← appendTlv dst .eventsData t.eventsData (fun d m => appendEventsDataN d m.data)
  let dst ← appendTlv dst .faultsData t.faultsData (fun d m => appendEventsDataN d m.data)
  let dst ← appendTlv dst .driverActivityData t.driverActivityData (fun d m => appendDriverActivityN d (some m.data))
  let dst ← appendTlv dst .vehiclesUsed t.vehiclesUsed (fun d m => appendVehiclesUsedN d (some m.data))
  let dst ← appendTlv dst .places t.places (fun d m => appendPlacesN d (some m.data))
  let dst ← appendTlv dst .currentUsage t.currentUsage (fun d m => appendCurrentUsage d (some m.data))
  let dst ← appendTlv dst .controlActivityData t.controlActivityData (fun d m => appendControlActivity d (some m.data))
  let dst ← appendTlv dst .specificConditions t.specificConditions (fun d m => appendSpecificConditionsN d (some m.data))
  appendTlvUnsigned dst .cardDownloadDriver t.cardDownload (fun d m => appendCardDownload d (some m))

/-- The Gen2 block of `appendDriverCard`, internal/card/driver_card_file.go:714-757. -/
def appendGen2N (dst : Bytes) (t : TachographG2N) : Res Bytes := do
  let dst ← appendTlvG2 dst .applicationIdentification t.applicationIdentification (fun d m => appendAppIdG2 d (some m.data))
  let dst ← appendTlvG2 dst .vehiclesUsed t.vehiclesUsed (fun d m => appendVehiclesUsedG2N d (some m.data))
  let dst ← appendTlvG2 dst .places t.places (fun d m => appendPlacesG2N d (some m.data))
  let dst ← appendTlvG2 dst .specificConditions t.specificConditions (fun d m => appendSpecificConditionsG2N d (some m.data))
  let dst ← appendTlvG2 dst .vehicleUnitsUsed t.vehicleUnitsUsed (fun d m => appendVehicleUnitsUsedN d (some m.data))
  let dst ← appendTlvG2 dst .gnssPlaces t.gnssPlaces (fun d m => appendGnssPlacesN d (some m.data))
  appendTlvG2 dst .applicationIdentificationV2 t.applicationIdentificationV2 (fun d m => appendAppIdV2 d (some m.data))

/-- The certificate part of `appendDriverCard`, internal/card/driver_card_file.go:759-822. -/
def appendCertificatesN (dst : Bytes) (card : DriverCardN) : Bytes :=
  let dst := match card.tachograph with
    | none => dst
    | some t =>
      let dst := appendCertificateEF dst .cardCertificate 0x00 (t.cardCertificate.map RsaCert.raw)
      appendCertificateEF dst .caCertificate 0x00 (t.caCertificate.map RsaCert.raw)
  match card.tachographG2 with
  | none => dst
  | some t =>
    let dst := appendCertificateEF dst .cardMaCertificate 0x02 (t.cardMaCertificate.map EccCert.raw)
    let dst := appendCertificateEF dst .cardSignCertificate 0x02 (t.cardSignCertificate.map EccCert.raw)
    let dst := appendCertificateEF dst .caCertificate 0x02 (t.caCertificate.map EccCert.raw)
    appendCertificateEF dst .linkCertificate 0x02 (t.linkCertificate.map EccCert.raw)

/-- `appendDriverCard`, internal/card/driver_card_file.go:625-827. -/
def appendDriverCardN (dst : Bytes) (card : DriverCardN) : Res Bytes := do
  let dst ← appendGen1N dst card
  let dst ← match card.tachographG2 with
    | none => .ok dst
    | some t => appendGen2N dst t
  return appendCertificatesN dst card

/-- `File` message. -/
structure FileN where
  type : FileType := .unspecified
  vehicleUnit : Option VehicleUnitFile := none
  driverCard : Option DriverCardN := none
  rawCard : Option (List (Option RawRec)) := none

/-- `MarshalFile`, marshal.go:12-23, with `MarshalDriverCardFile`, internal/card/driver_card_file.go:24-34, and
`MarshalRawCardFile`, internal/card/rawcardfile.go:32-44 (getters only). The lists of a vehicle unit message
are not looked at: no such message is written. -/
def marshalFileN (file : Option FileN) : Res Bytes :=
  match (file.getD {}).type with
  | .driverCard =>
    match (file.getD {}).driverCard with
    | none => .err "driver card file is nil"
    | some c => appendDriverCardN [] c
  | .vehicleUnit => marshalVehicleUnitFile (file.getD {}).vehicleUnit
  | .rawCard => .ok (((file.getD {}).rawCard.getD []).flatMap fun r => marshalRawRec (r.getD emptyRawRec))
  | _ => .err "unsupported file type for marshaling"

/-! ## Anonymising -/

/-- `anonymizeTimestampsInPlace`, internal/card/places.go:184-204, from index `i` on: `SetEntryTime` of a nil
record panics. -/
def anonymizeTimestampsN : Nat → List (Option PlaceRecord) → Res (List (Option PlaceRecord))
  | _, [] => .ok []
  | i, r :: rs => do
    let r ← (if (r.getD emptyPlace).entryTime.isSome ∨ i = 0 then
        match r with
        | none => .panic
        | some r => .ok (some { r with entryTime := some ⟨1577836800 + (i : Int) * 3600, 0⟩ })
      else .ok r)
    let rs ← anonymizeTimestampsN (i + 1) rs
    return r :: rs

/-- The `AppendPlaceRecord` loop of `AnonymizePlaces`, internal/card/places.go:161-166: `SetRawData` of a nil
record panics. -/
def regeneratePlacesN : List (Option PlaceRecord) → Res (List (Option PlaceRecord))
  | [] => .ok []
  | r :: rs => do
    let r ← (match appendPlaceRecordN [] r with
      | .ok b =>
        match r with
        | none => .panic
        | some r => .ok (some { r with rawData := some b })
      | _ => .ok r)
    let rs ← regeneratePlacesN rs
    return r :: rs

/-- `AnonymizePlaces`, internal/card/places.go:139-179; `AnonymizePlaceRecord`, internal/dd/place_record.go:148-184,
returns nil for nil. -/
def anonymizePlacesN (p : RecordFile (Option PlaceRecord)) : Res (RecordFile (Option PlaceRecord)) := do
  let records ← anonymizeTimestampsN 0 (p.records.map (Option.map anonymizePlaceRecord))
  let records ← regeneratePlacesN records
  let result : RecordFile (Option PlaceRecord) := { rawData := none, newest := p.newest, records := records }
  return match appendPlacesN [] (some result) with
    | .ok b => { result with rawData := some b }
    | _ => result

/-- `anonymizeTimestampsInPlaceG2`, internal/card/places_g2.go:186-216, from index `i` on. -/
def anonymizeTimestampsG2N : Nat → List (Option PlaceRecordG2) → Res (List (Option PlaceRecordG2))
  | _, [] => .ok []
  | i, r :: rs => do
    let t : Option Timestamp := some ⟨1577836800 + (i : Int) * 3600, 0⟩
    let r ← (if (r.getD emptyPlaceG2).base.entryTime.isSome ∨ i = 0 then
        match r with
        | none => .panic
        | some r => .ok (some { r with base := { r.base with entryTime := t } })
      else .ok r)
    let r := r.map fun r => { r with gnss := r.gnss.map fun g => if g.timestamp.isSome then { g with timestamp := t } else g }
    let rs ← anonymizeTimestampsG2N (i + 1) rs
    return r :: rs

/-- The `AppendPlaceRecordG2` loop of `AnonymizePlacesG2`, internal/card/places_g2.go:163-168. -/
def regeneratePlacesG2N : List (Option PlaceRecordG2) → Res (List (Option PlaceRecordG2))
  | [] => .ok []
  | r :: rs => do
    let r ← (match appendPlaceRecordG2N [] r with
      | .ok b =>
        match r with
        | none => .panic
        | some r => .ok (some { r with base := { r.base with rawData := some b } })
      | _ => .ok r)
    let rs ← regeneratePlacesG2N rs
    return r :: rs

/-- `AnonymizePlacesG2`, internal/card/places_g2.go:141-181; `AnonymizePlaceRecordG2`,
internal/dd/place_record_g2.go:155-188, returns nil for nil. -/
def anonymizePlacesG2N (p : RecordFile (Option PlaceRecordG2)) : Res (RecordFile (Option PlaceRecordG2)) := do
  let records ← anonymizeTimestampsG2N 0 (p.records.map (Option.map anonymizePlaceRecordG2))
  let records ← regeneratePlacesG2N records
  let result : RecordFile (Option PlaceRecordG2) := { rawData := none, newest := p.newest, records := records }
  return match appendPlacesG2N [] (some result) with
    | .ok b => { result with rawData := some b }
    | _ => result

/-- The loop of `AnonymizeVehiclesUsed`, internal/card/vehicles_used.go:150-153; `AnonymizeCardVehicleRecord`,
internal/dd/card_vehicle_record.go:156-205, returns nil for nil. -/
def anonymizeVehicleRecordsN : Nat → List (Option CardVehicleRecord) → List (Option CardVehicleRecord)
  | _, [] => []
  | i, r :: rs => r.map (anonymizeCardVehicleRecord · i) :: anonymizeVehicleRecordsN (i + 1) rs

/-- `AnonymizeVehiclesUsed`, internal/card/vehicles_used.go:138-165. -/
def anonymizeVehiclesUsedN (v : RecordFile (Option CardVehicleRecord)) : RecordFile (Option CardVehicleRecord) :=
  let result : RecordFile (Option CardVehicleRecord) := {
    rawData := none, newest := v.newest, records := anonymizeVehicleRecordsN 0 v.records }
  match appendVehiclesUsedN [] (some result) with
  | .ok b => { result with rawData := some b }
  | _ => result

end Tacho
