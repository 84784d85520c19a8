import Verif.Model.VuRaw
import Verif.Model.Records
/-!
# Vehicle unit files, second pass: internal/vu/vehicle_unit_file.go and the Unmarshal functions
-/

namespace Tacho

/-- A Gen1 transfer of which only the raw data and the signature are kept
(`EventsAndFaultsGen1`, `DetailedSpeedGen1`, `TechnicalDataGen1`). -/
structure SignedGen1 where
  rawData : Bytes
  signature : Bytes
  deriving Repr, DecidableEq

/-- `unmarshalEventsAndFaultsGen1`, internal/vu/events_faults_gen1.go:25-40;
`unmarshalDetailedSpeedGen1`, detailed_speed_gen1.go:21-36; `unmarshalTechnicalDataGen1`,
technical_data_gen1.go:27-42: the three are the same. -/
def unmarshalSignedGen1 (value : Bytes) : Res SignedGen1 := do
  if value.length < 128 then .err "insufficient data"
  let signature ← from? value (value.length - 128)
  return { rawData := value, signature := signature }

/-- A Gen2 transfer, of which only the raw data are kept (the `...Gen2V1`, `...Gen2V2` and
`DetailedSpeedGen2` messages). -/
structure RawGen2 where
  rawData : Bytes
  deriving Repr, DecidableEq

/-- The Gen2 unmarshal functions: skip the named record arrays, then require that the value is used
up (e.g. internal/vu/overview_gen2_v1.go:35-116). -/
def unmarshalArrays (names : List String) (value : Bytes) : Res RawGen2 := do
  let offset ← walkArrays value names 0
  if offset ≠ value.length then .err "parsing mismatch"
  return { rawData := value }

/-- `unmarshalOverviewGen2V1`, internal/vu/overview_gen2_v1.go:35-116. -/
def unmarshalOverviewG2V1 : Bytes → Res RawGen2 :=
  unmarshalArrays ["MemberStateCertificate", "VUCertificate", "VehicleIdentificationNumber",
    "VehicleRegistrationIdentification", "CurrentDateTime", "VuDownloadablePeriod", "CardSlotsStatus",
    "VuDownloadActivityData", "VuCompanyLocks", "VuControlActivity", "Signature"]

/-- `unmarshalOverviewGen2V2`, internal/vu/overview_gen2_v2.go:37-118. -/
def unmarshalOverviewG2V2 : Bytes → Res RawGen2 :=
  unmarshalArrays ["MemberStateCertificate", "VUCertificate", "VehicleIdentificationNumber",
    "VehicleRegistrationNumber", "CurrentDateTime", "VuDownloadablePeriod", "CardSlotsStatus",
    "VuDownloadActivityData", "VuCompanyLocks", "VuControlActivity", "Signature"]

/-- `unmarshalActivitiesGen2V1`, internal/vu/activities_gen2_v1.go:31-92. -/
def unmarshalActivitiesG2V1 : Bytes → Res RawGen2 :=
  unmarshalArrays ["TimeReal", "OdometerValueMidnight", "VuCardIW", "VuActivityDaily",
    "VuPlaceDailyWorkPeriod", "VuSpecificCondition", "Signature"]

/-- `unmarshalActivitiesGen2V2`, internal/vu/activities_gen2_v2.go:31-92. -/
def unmarshalActivitiesG2V2 : Bytes → Res RawGen2 :=
  unmarshalArrays ["TimeReal", "OdometerValueMidnight", "VuCardIW", "VuActivityDaily",
    "VuPlaceDailyWorkPeriod", "VuSpecificCondition", "Signature"]

/-- `unmarshalEventsAndFaultsGen2V1`, internal/vu/events_faults_gen2_v1.go:14-56. -/
def unmarshalEventsG2V1 : Bytes → Res RawGen2 :=
  unmarshalArrays ["VuFault", "VuEvent", "VuOverSpeedingControl", "VuTimeAdjustment", "Signature"]

/-- `unmarshalEventsAndFaultsGen2V2`, internal/vu/events_faults_gen2_v2.go:14-56. -/
def unmarshalEventsG2V2 : Bytes → Res RawGen2 :=
  unmarshalArrays ["VuFault", "VuEvent", "VuOverSpeedingControl", "VuTimeAdjustment", "Signature"]

/-- `unmarshalDetailedSpeedGen2`, internal/vu/detailed_speed_gen2.go:15-45. -/
def unmarshalSpeedGen2 : Bytes → Res RawGen2 :=
  unmarshalArrays ["VuDetailedSpeed", "Signature"]

/-- `unmarshalTechnicalDataGen2V1`, internal/vu/technical_data_gen2_v1.go:14-60. -/
def unmarshalTechnicalG2V1 : Bytes → Res RawGen2 :=
  unmarshalArrays ["VuApprovalNumber", "VuSoftwareIdentification", "VuManufacturerName",
    "VuManufacturerAddress", "VuPartNumber", "VuSerialNumber", "SensorPaired", "Signature"]

/-- `unmarshalTechnicalDataGen2V2`, internal/vu/technical_data_gen2_v2.go:14-60. -/
def unmarshalTechnicalG2V2 : Bytes → Res RawGen2 :=
  unmarshalArrays ["VuApprovalNumber", "VuSoftwareIdentification", "VuManufacturerName",
    "VuManufacturerAddress", "VuPartNumber", "VuSerialNumber", "SensorPaired", "Signature"]

/-- The `append...` functions of all transfers but the Gen1 overview: the raw data as they are, an error
when there are none or there is no message (`none`, a nil pointer). All thirteen have this body; the
argument is what they read of the message, `GetRawData()`. `appendActivitiesGen1`,
internal/vu/activities_gen1.go:243-265; `appendActivitiesGen2V1`, `appendActivitiesGen2V2`,
activities_gen2_v1.go:98-112 and activities_gen2_v2.go:98-112; `appendDetailedSpeedGen1`,
detailed_speed_gen1.go:39-50; `appendDetailedSpeedGen2`, detailed_speed_gen2.go:48-59;
`appendEventsAndFaultsGen1`, events_faults_gen1.go:43-55; `appendEventsAndFaultsGen2V1`,
`appendEventsAndFaultsGen2V2`, events_faults_gen2_v1.go:59-70 and events_faults_gen2_v2.go:59-70;
`appendOverviewGen2V1`, `appendOverviewGen2V2`, overview_gen2_v1.go:123-138 and
overview_gen2_v2.go:125-140; `appendTechnicalDataGen1`, technical_data_gen1.go:45-56;
`appendTechnicalDataGen2V1`, `appendTechnicalDataGen2V2`, technical_data_gen2_v1.go:63-74 and
technical_data_gen2_v2.go:63-74. -/
def appendRaw (dst : Bytes) (rawData : Option Bytes) : Res Bytes :=
  match rawData with
  | none => .err "cannot be nil"
  | some raw => if raw.length > 0 then .ok (dst ++ raw) else .err "cannot marshal without raw_data"

section
variable [Charmap]

/-! ## Gen1 overview -/

/-- `DownloadablePeriod` message. -/
structure DownloadablePeriod where
  minTime : Option Timestamp
  maxTime : Option Timestamp
  deriving Repr, DecidableEq

/-- `OverviewGen1_DownloadActivity` message. -/
structure DownloadActivity where
  downloadingTime : Option Timestamp
  fullCardNumber : Option FullCardNumber
  companyOrWorkshopName : Option StringValue
  deriving Repr, DecidableEq

/-- `OverviewGen1_CompanyLock` message. -/
structure CompanyLock where
  lockInTime : Option Timestamp
  lockOutTime : Option Timestamp
  companyName : Option StringValue
  companyAddress : Option StringValue
  companyCardNumber : Option FullCardNumber
  deriving Repr, DecidableEq

/-- `OverviewGen1_ControlActivity` message. -/
structure VuControlActivity where
  controlType : Option ControlType
  controlTime : Option Timestamp
  controlCardNumber : Option FullCardNumber
  downloadPeriodBeginTime : Option Timestamp
  downloadPeriodEndTime : Option Timestamp
  deriving Repr, DecidableEq

/-- `OverviewGen1` message (vu/v1/overview_gen1.proto). -/
structure OverviewGen1 where
  rawData : Bytes
  memberStateCertificate : Bytes
  vuCertificate : Bytes
  vin : Option Ia5StringValue
  registration : Option VehicleRegistration
  currentDateTime : Option Timestamp
  downloadablePeriod : Option DownloadablePeriod
  driverSlotCard : Int
  coDriverSlotCard : Int
  downloadActivities : List DownloadActivity
  companyLocks : List CompanyLock
  controlActivities : List VuControlActivity
  signature : Bytes
  deriving Repr, DecidableEq

/-- A loop that parses `n` records of `size` bytes each, starting at `offset`. -/
def loopAt {α : Type} (f : Nat → Res α) (size : Nat) : (n : Nat) → (offset : Nat) → Res (List α)
  | 0, _ => .ok []
  | n + 1, offset => do
    let r ← f offset
    let rs ← loopAt f size n (offset + size)
    return r :: rs

/-- The body of the company lock loop, internal/vu/overview_gen1.go:193-237. -/
def companyLockAt (value : Bytes) (offset : Nat) : Res CompanyLock := do
  let lockIn ← unmarshalTimeReal (← sl? value offset (offset + 4))
  let lockOut ← unmarshalTimeReal (← sl? value (offset + 4) (offset + 8))
  let name ← unmarshalStringValue (← sl? value (offset + 8) (offset + 44))
  let address ← unmarshalStringValue (← sl? value (offset + 44) (offset + 80))
  let number ← unmarshalFullCardNumber (← sl? value (offset + 80) (offset + 98))
  return { lockInTime := lockIn, lockOutTime := lockOut, companyName := some name,
           companyAddress := some address, companyCardNumber := some number }

omit [Charmap] in
/-- The body of the control activity loop, internal/vu/overview_gen1.go:252-296. -/
def controlActivityAt (value : Bytes) (offset : Nat) : Res VuControlActivity := do
  let type ← unmarshalControlType (← sl? value offset (offset + 1))
  let time ← unmarshalTimeReal (← sl? value (offset + 1) (offset + 5))
  let number ← unmarshalFullCardNumber (← sl? value (offset + 5) (offset + 23))
  let beginTime ← unmarshalTimeReal (← sl? value (offset + 23) (offset + 27))
  let endTime ← unmarshalTimeReal (← sl? value (offset + 27) (offset + 31))
  return { controlType := some type, controlTime := time, controlCardNumber := some number,
           downloadPeriodBeginTime := beginTime, downloadPeriodEndTime := endTime }

/-- `unmarshalOverviewGen1`, internal/vu/overview_gen1.go:61-312. The offsets of the fixed part are
written out: 194, 388, 405, 420, 424, 432, 433, 491. -/
def unmarshalOverviewGen1 (value : Bytes) : Res OverviewGen1 := do
  if 194 > value.length then .err "insufficient data for MemberStateCertificate"
  let msCert ← sl? value 0 194
  if 388 > value.length then .err "insufficient data for VuCertificate"
  let vuCert ← sl? value 194 388
  if 405 > value.length then .err "insufficient data for VehicleIdentificationNumber"
  let vin ← unmarshalIa5StringValue (← sl? value 388 405)
  if 420 > value.length then .err "insufficient data for VehicleRegistrationIdentification"
  let vrn ← unmarshalVehicleRegistration (← sl? value 405 420)
  if 424 > value.length then .err "insufficient data for CurrentDateTime"
  let current ← unmarshalTimeReal (← sl? value 420 424)
  if 432 > value.length then .err "insufficient data for VuDownloadablePeriod"
  let minTime ← unmarshalTimeReal (← sl? value 424 428)
  let maxTime ← unmarshalTimeReal (← sl? value 428 432)
  if 433 > value.length then .err "insufficient data for CardSlotsStatus"
  let slots ← at? value 432
  if 491 > value.length then .err "insufficient data for VuDownloadActivityData"
  let dlTime ← unmarshalTimeReal (← sl? value 433 437)
  let dlCard ← unmarshalFullCardNumber (← sl? value 437 455)
  let dlName ← unmarshalStringValue (← sl? value 455 491)
  if 492 > value.length then .err "insufficient data for VuCompanyLocksData noOfLocks"
  let noOfLocks ← at? value 491
  let offset := 492
  if offset + noOfLocks.toNat * 98 > value.length then .err "insufficient data for VuCompanyLocksData records"
  let locks ← loopAt (companyLockAt value) 98 noOfLocks.toNat offset
  let offset := offset + noOfLocks.toNat * 98
  if offset + 1 > value.length then .err "insufficient data for VuControlActivityData noOfControls"
  let noOfControls ← at? value offset
  let offset := offset + 1
  if offset + noOfControls.toNat * 31 > value.length then .err "insufficient data for VuControlActivityData records"
  let controls ← loopAt (controlActivityAt value) 31 noOfControls.toNat offset
  let offset := offset + noOfControls.toNat * 31
  if offset + 128 > value.length then .err "insufficient data for Signature"
  let signature ← sl? value offset (offset + 128)
  let offset := offset + 128
  if offset ≠ value.length then .err "Overview Gen1 parsing mismatch"
  return {
    rawData := value, memberStateCertificate := msCert, vuCertificate := vuCert, vin := some vin
    registration := some vrn, currentDateTime := current
    downloadablePeriod := some { minTime := minTime, maxTime := maxTime }
    driverSlotCard := (slots.toNat % 16 : Nat), coDriverSlotCard := (slots.toNat / 16 : Nat)
    downloadActivities := [{ downloadingTime := dlTime, fullCardNumber := some dlCard,
                             companyOrWorkshopName := some dlName }]
    companyLocks := locks, controlActivities := controls, signature := signature }

omit [Charmap] in
/-- `slot, err := dd.MarshalEnum(...); if err != nil { slot = 0 }`,
internal/vu/overview_gen1.go:404-411. -/
def slotByte (v : Int) : UInt8 :=
  match marshalEnum slotCardTypeTable v with
  | .ok b => b
  | _ => 0

omit [Charmap] in
/-- The body of the company lock loop of the writer, internal/vu/overview_gen1.go:451-491. -/
def paintLock (canvas : Bytes) (offset : Nat) (lock : CompanyLock) : Res Bytes := do
  let canvas := paint canvas offset 4 (← appendTimeReal [] lock.lockInTime)
  let canvas := paint canvas (offset + 4) 4 (← appendTimeReal [] lock.lockOutTime)
  let canvas := paint canvas (offset + 8) 36 (← appendStringValue [] lock.companyName)
  let canvas := paint canvas (offset + 44) 36 (← appendStringValue [] lock.companyAddress)
  return paint canvas (offset + 80) 18 (← appendFullCardNumber [] lock.companyCardNumber)

omit [Charmap] in
/-- The body of the control activity loop of the writer, internal/vu/overview_gen1.go:497-537. -/
def paintControl (canvas : Bytes) (offset : Nat) (c : VuControlActivity) : Res Bytes := do
  let canvas := paint canvas offset 1 (← appendControlType [] (c.controlType.getD default))
  let canvas := paint canvas (offset + 1) 4 (← appendTimeReal [] c.controlTime)
  let canvas := paint canvas (offset + 5) 18 (← appendFullCardNumber [] c.controlCardNumber)
  let canvas := paint canvas (offset + 23) 4 (← appendTimeReal [] c.downloadPeriodBeginTime)
  return paint canvas (offset + 27) 4 (← appendTimeReal [] c.downloadPeriodEndTime)

omit [Charmap] in
/-- A writing loop with a running offset. -/
def paintAll {α : Type} (f : Bytes → Nat → α → Res Bytes) (size : Nat) (canvas : Bytes) (offset : Nat) :
    List α → Res Bytes
  | [] => .ok canvas
  | r :: rs => do
    let canvas ← f canvas offset r
    paintAll f size canvas (offset + size) rs

omit [Charmap] in
/-- `appendOverviewGen1`, internal/vu/overview_gen1.go:319-543. -/
def appendOverviewGen1 (dst : Bytes) (overview : Option OverviewGen1) : Res Bytes :=
  match overview with
  | none => .err "overview cannot be nil"
  | some o => do
    let noOfLocks := o.companyLocks.length
    let noOfControls := o.controlActivities.length
    let expectedSize := 491 + 1 + noOfLocks * 98 + 1 + noOfControls * 31 + 128
    let canvas := if o.rawData.length = expectedSize then o.rawData else zeros expectedSize
    let canvas := paint canvas 0 194 o.memberStateCertificate
    let canvas := paint canvas 194 194 o.vuCertificate
    let canvas ← match o.vin with
      | none => .ok canvas
      | some vin => do pure <| paint canvas 388 17 (← appendIa5StringValue [] (some vin))
    let canvas ← match o.registration with
      | none => .ok canvas
      | some vrn => do pure <| paint canvas 405 15 (← appendVehicleRegistration [] (some vrn))
    let canvas ← match o.currentDateTime with
      | none => .ok canvas
      | some t => do pure <| paint canvas 420 4 (← appendTimeReal [] (some t))
    let canvas ← match o.downloadablePeriod with
      | none => .ok canvas
      | some p => do
        let canvas := paint canvas 424 4 (← appendTimeReal [] p.minTime)
        pure <| paint canvas 428 4 (← appendTimeReal [] p.maxTime)
    let canvas := paint canvas 432 1 [(slotByte o.coDriverSlotCard <<< 4) ||| (slotByte o.driverSlotCard &&& 0x0F)]
    let canvas ← match o.downloadActivities with
      | [] => .ok canvas
      | a :: _ => do
        let canvas := paint canvas 433 4 (← appendTimeReal [] a.downloadingTime)
        let canvas := paint canvas 437 18 (← appendFullCardNumber [] a.fullCardNumber)
        pure <| paint canvas 455 36 (← appendStringValue [] a.companyOrWorkshopName)
    let canvas := paint canvas 491 1 [UInt8.ofNat noOfLocks]
    let canvas ← paintAll paintLock 98 canvas 492 o.companyLocks
    let offset := 492 + noOfLocks * 98
    let canvas := paint canvas offset 1 [UInt8.ofNat noOfControls]
    let offset := offset + 1
    let canvas ← paintAll paintControl 31 canvas offset o.controlActivities
    let offset := offset + noOfControls * 31
    let canvas := paint canvas offset 128 o.signature
    return dst ++ canvas

/-! ## Gen1 activities -/

/-- `ActivitiesGen1_PlaceRecord` message; the card number of the record is skipped. -/
structure VuPlaceRecord where
  entryTime : Option Timestamp
  entryType : Int
  country : Int
  region : Bytes
  odometerKm : Int
  deriving Repr, DecidableEq

/-- `ActivitiesGen1` message (vu/v1/activities_gen1.proto). -/
structure ActivitiesGen1 where
  rawData : Bytes
  dateOfDay : Option Timestamp
  odometerMidnightKm : Int
  cardIWData : List VuCardIWRecord
  activityChanges : List ActivityChangeInfo
  places : List VuPlaceRecord
  specificConditions : List SpecificConditionRecord
  signature : Bytes
  deriving Repr, DecidableEq

/-- The loop body of internal/vu/activities_gen1.go:92-105. -/
def cardIWAt (value : Bytes) (offset : Nat) : Res VuCardIWRecord := do
  if offset + 129 > value.length then .err "insufficient data for CardIWRecord"
  unmarshalVuCardIWRecord (← sl? value offset (offset + 129))

omit [Charmap] in
/-- The loop body of internal/vu/activities_gen1.go:117-129. -/
def activityChangeAt (value : Bytes) (offset : Nat) : Res ActivityChangeInfo := do
  if offset + 2 > value.length then .err "insufficient data for ActivityChangeInfo"
  unmarshalActivityChangeInfo (← sl? value offset (offset + 2))

omit [Charmap] in
/-- The loop body of internal/vu/activities_gen1.go:142-193. -/
def vuPlaceAt (value : Bytes) (offset : Nat) : Res VuPlaceRecord := do
  if offset + 28 > value.length then .err "insufficient data for PlaceRecord"
  let time ← unmarshalTimeReal (← sl? value (offset + 18) (offset + 22))
  let type ← unmarshalEnum entryTypeDailyWorkPeriodTable (← at? value (offset + 22))
  let country ← unmarshalEnum nationNumericTable (← at? value (offset + 23))
  let region ← sl? value (offset + 24) (offset + 25)
  let odometer ← unmarshalOdometer (← sl? value (offset + 25) (offset + 28))
  return { entryTime := time, entryType := type, country := country, region := region,
           odometerKm := (odometer : Nat) }

omit [Charmap] in
/-- The loop body of internal/vu/activities_gen1.go:205-217. -/
def specificConditionAt (value : Bytes) (offset : Nat) : Res SpecificConditionRecord := do
  if offset + 5 > value.length then .err "insufficient data for SpecificConditionRecord"
  unmarshalSpecificConditionRecord (← sl? value offset (offset + 5))

/-- `unmarshalActivitiesGen1`, internal/vu/activities_gen1.go:55-236. -/
def unmarshalActivitiesGen1 (value : Bytes) : Res ActivitiesGen1 := do
  if 4 > value.length then .err "insufficient data for TimeReal"
  let day ← unmarshalTimeReal (← sl? value 0 4)
  if 7 > value.length then .err "insufficient data for OdometerValueMidnight"
  let odometer ← unmarshalOdometer (← sl? value 4 7)
  if 9 > value.length then .err "insufficient data for noOfIWRecords"
  let nIW := beNat (← sl? value 7 9)
  let iw ← loopAt (cardIWAt value) 129 nIW 9
  let offset := 9 + nIW * 129
  if offset + 2 > value.length then .err "insufficient data for noOfActivityChanges"
  let nChanges := beNat (← sl? value offset (offset + 2))
  let offset := offset + 2
  let changes ← loopAt (activityChangeAt value) 2 nChanges offset
  let offset := offset + nChanges * 2
  if offset + 1 > value.length then .err "insufficient data for noOfPlaceRecords"
  let nPlaces := (← at? value offset).toNat
  let offset := offset + 1
  let places ← loopAt (vuPlaceAt value) 28 nPlaces offset
  let offset := offset + nPlaces * 28
  if offset + 2 > value.length then .err "insufficient data for noOfSpecificConditionRecords"
  let nConditions := beNat (← sl? value offset (offset + 2))
  let offset := offset + 2
  let conditions ← loopAt (specificConditionAt value) 5 nConditions offset
  let offset := offset + nConditions * 5
  if offset + 128 > value.length then .err "insufficient data for Signature"
  let signature ← sl? value offset (offset + 128)
  let offset := offset + 128
  if offset ≠ value.length then .err "Activities Gen1 parsing mismatch"
  return {
    rawData := value, dateOfDay := day, odometerMidnightKm := (odometer : Nat), cardIWData := iw
    activityChanges := changes, places := places, specificConditions := conditions
    signature := signature }

/-! ## The file -/

/-- `VehicleUnitFileGen1` message. -/
structure VuGen1 where
  overview : Option OverviewGen1 := none
  activities : List ActivitiesGen1 := []
  eventsAndFaults : List SignedGen1 := []
  detailedSpeed : List SignedGen1 := []
  technicalData : List SignedGen1 := []
  deriving DecidableEq

/-- `VehicleUnitFileGen2V1` and `VehicleUnitFileGen2V2` messages. The latter's download interface
version is never set (vehicle_unit_file.go:221-224). -/
structure VuGen2 where
  overview : Option RawGen2 := none
  activities : List RawGen2 := []
  eventsAndFaults : List RawGen2 := []
  detailedSpeed : List RawGen2 := []
  technicalData : List RawGen2 := []
  deriving DecidableEq

/-- `VehicleUnitFile` message. -/
structure VehicleUnitFile where
  generation : Generation := .unspecified
  version : Version := .unspecified
  gen1 : Option VuGen1 := none
  gen2V1 : Option VuGen2 := none
  gen2V2 : Option VuGen2 := none
  deriving DecidableEq

/-- `unmarshalVehicleUnitFileGen1`, internal/vu/vehicle_unit_file.go:118-164. -/
def unmarshalVuGen1 (out : VuGen1) : List VuRec → Res VuGen1
  | [] => .ok out
  | r :: rs => do
    let out ← match r.type with
      | .overviewGen1 => do pure { out with overview := some (← unmarshalOverviewGen1 r.value) }
      | .activitiesGen1 => do pure { out with activities := out.activities ++ [← unmarshalActivitiesGen1 r.value] }
      | .eventsGen1 => do pure { out with eventsAndFaults := out.eventsAndFaults ++ [← unmarshalSignedGen1 r.value] }
      | .speedGen1 => do pure { out with detailedSpeed := out.detailedSpeed ++ [← unmarshalSignedGen1 r.value] }
      | .technicalGen1 => do pure { out with technicalData := out.technicalData ++ [← unmarshalSignedGen1 r.value] }
      | _ => .err "unexpected transfer type in Gen1 file"
    unmarshalVuGen1 out rs

omit [Charmap] in
/-- `unmarshalVehicleUnitFileGen2V1`, internal/vu/vehicle_unit_file.go:167-213. -/
def unmarshalVuG2V1 (out : VuGen2) : List VuRec → Res VuGen2
  | [] => .ok out
  | r :: rs => do
    let out ← match r.type with
      | .overviewG2V1 => do pure { out with overview := some (← unmarshalOverviewG2V1 r.value) }
      | .activitiesG2V1 => do pure { out with activities := out.activities ++ [← unmarshalActivitiesG2V1 r.value] }
      | .eventsG2V1 => do pure { out with eventsAndFaults := out.eventsAndFaults ++ [← unmarshalEventsG2V1 r.value] }
      | .speedGen2 => do pure { out with detailedSpeed := out.detailedSpeed ++ [← unmarshalSpeedGen2 r.value] }
      | .technicalG2V1 => do pure { out with technicalData := out.technicalData ++ [← unmarshalTechnicalG2V1 r.value] }
      | _ => .err "unexpected transfer type in Gen2 V1 file"
    unmarshalVuG2V1 out rs

omit [Charmap] in
/-- `unmarshalVehicleUnitFileGen2V2`, internal/vu/vehicle_unit_file.go:216-267. -/
def unmarshalVuG2V2 (out : VuGen2) : List VuRec → Res VuGen2
  | [] => .ok out
  | r :: rs => do
    let out ← match r.type with
      | .downloadInterfaceVersion => .ok out
      | .overviewG2V2 => do pure { out with overview := some (← unmarshalOverviewG2V2 r.value) }
      | .activitiesG2V2 => do pure { out with activities := out.activities ++ [← unmarshalActivitiesG2V2 r.value] }
      | .eventsG2V2 => do pure { out with eventsAndFaults := out.eventsAndFaults ++ [← unmarshalEventsG2V2 r.value] }
      | .speedGen2 => do pure { out with detailedSpeed := out.detailedSpeed ++ [← unmarshalSpeedGen2 r.value] }
      | .technicalG2V2 => do pure { out with technicalData := out.technicalData ++ [← unmarshalTechnicalG2V2 r.value] }
      | _ => .err "unexpected transfer type in Gen2 V2 file"
    unmarshalVuG2V2 out rs

omit [Charmap] in
/-- `hasGen2V2Transfers`, internal/vu/vehicle_unit_file.go:103-115. -/
def hasGen2V2Transfers (rs : List VuRec) : Bool :=
  rs.any (fun r => match r.type with
    | .downloadInterfaceVersion | .overviewG2V2 | .activitiesG2V2 | .eventsG2V2 | .technicalG2V2 => true
    | _ => false)

/-- `UnmarshalVehicleUnitFile` / `unmarshalVehicleUnitFile`, internal/vu/vehicle_unit_file.go:12-14, 48-98. -/
def unmarshalVehicleUnitFile (input : Bytes) : Res VehicleUnitFile := do
  let rs ← unmarshalRawVehicleUnitFile input
  match rs with
  | [] => .err "empty VU file"
  | first :: _ =>
    match first.generation with
    | .gen1 => do return { generation := .gen1, gen1 := some (← unmarshalVuGen1 {} rs) }
    | .gen2 =>
      if hasGen2V2Transfers rs then do
        return { generation := .gen2, version := .v2, gen2V2 := some (← unmarshalVuG2V2 {} rs) }
      else do
        return { generation := .gen2, version := .v1, gen2V1 := some (← unmarshalVuG2V1 {} rs) }
    | .unspecified => .err "unknown generation"

omit [Charmap] in
/-- `MarshalVehicleUnitFile` and `appendVU`, internal/vu/vehicle_unit_file.go:17-27, 306-316. -/
def marshalVehicleUnitFile (file : Option VehicleUnitFile) : Res Bytes :=
  match file with
  | none => .err "vehicle unit file is nil"
  | some _ => .err "VehicleUnitFile marshalling is not implemented"

end

end Tacho
