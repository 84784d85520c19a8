import Verif.Model.RawCard
/-!
# Vehicle unit files, first pass: internal/vu/raw_vehicle_unit_file.go and the sizeOf functions
-/

namespace Tacho

/-- `TransferType` (vu/v1/transfer_type.proto) without UNSPECIFIED, which is `none` below. -/
inductive TransferType where
  | downloadInterfaceVersion
  | overviewGen1 | activitiesGen1 | eventsGen1 | speedGen1 | technicalGen1
  | cardDownload
  | overviewG2V1 | activitiesG2V1 | eventsG2V1 | speedGen2 | technicalG2V1
  | overviewG2V2 | activitiesG2V2 | eventsG2V2 | technicalG2V2
  deriving Repr, DecidableEq

/-- The `trep_value` options in the order of vu/v1/transfer_type.proto:14-138. -/
def trepTable : List (TransferType × Nat) := [
  (.downloadInterfaceVersion, 0x00), (.overviewGen1, 0x01), (.activitiesGen1, 0x02),
  (.eventsGen1, 0x03), (.speedGen1, 0x04), (.technicalGen1, 0x05), (.cardDownload, 0x06),
  (.overviewG2V1, 0x21), (.activitiesG2V1, 0x22), (.eventsG2V1, 0x23), (.speedGen2, 0x24),
  (.technicalG2V1, 0x25), (.overviewG2V2, 0x31), (.activitiesG2V2, 0x32), (.eventsG2V2, 0x33),
  (.technicalG2V2, 0x35)]

/-- `findTransferTypeByTag`, internal/vu/vehicle_unit_file.go:270-285. -/
def findTransferTypeByTag (tag : Nat) : Option TransferType :=
  (trepTable.find? (fun p => 0x7600 ||| (p.2 &&& 0xFF) == tag)).map Prod.fst

/-- `generationFromTransferType`, internal/vu/raw_vehicle_unit_file.go:115-126, with the
`generation` options of vu/v1/transfer_type.proto. -/
def generationFromTransferType : TransferType → Generation
  | .overviewGen1 | .activitiesGen1 | .eventsGen1 | .speedGen1 | .technicalGen1 => .gen1
  | .cardDownload => .unspecified
  | _ => .gen2

/-! ## The sizeOf functions -/

/-- The step `if len(data[offset:]) < k { error }; n := <k byte number at offset>; offset += k;
offset += int(n) * size` that every Gen1 sizeOf function repeats. -/
def sizeCounted (data : Bytes) (offset k size : Nat) (what : String) : Res Nat := do
  let rest ← from? data offset
  if rest.length < k then .err what
  let n := beNat (← sl? data offset (offset + k))
  return offset + k + n * size

/-- `sizeOfRecordArray`, internal/vu/raw_vehicle_unit_file.go:101-112. -/
def sizeOfRecordArray (data : Bytes) (offset : Nat) : Res Nat := do
  let rest ← from? data offset
  if rest.length < 5 then .err "insufficient data for RecordArray header"
  let recordSize := beNat (← sl? data (offset + 1) (offset + 3))
  let noOfRecords := beNat (← sl? data (offset + 3) (offset + 5))
  return 5 + recordSize * noOfRecords

/-- A run of `size, err := sizeOfRecordArray(data, offset); ...; offset += size`, one for each name;
also the `skipRecordArray` closures of the Gen2 unmarshal functions. -/
def walkArrays (data : Bytes) : (names : List String) → (offset : Nat) → Res Nat
  | [], offset => .ok offset
  | _ :: names, offset => do
    let size ← sizeOfRecordArray data offset
    walkArrays data names (offset + size)

/-- `sizeOfDownloadInterfaceVersion`, internal/vu/download_interface_version.go:19-25. -/
def sizeOfDownloadInterfaceVersion (data : Bytes) : Res Nat :=
  if data.length < 2 then .err "insufficient data for DownloadInterfaceVersion" else .ok 2

/-- `sizeOfOverviewGen1`, internal/vu/overview.go:47-88. -/
def sizeOfOverviewGen1 (data : Bytes) : Res Nat := do
  let offset := 194 + 194 + 17 + 15 + 4 + 8 + 1 + 58
  let offset ← sizeCounted data offset 1 98 "insufficient data for noOfLocks"
  let offset ← sizeCounted data offset 1 31 "insufficient data for noOfControls"
  return offset + 128

/-- `sizeOfOverviewGen2V1`, internal/vu/overview.go:94-175. -/
def sizeOfOverviewG2V1 (data : Bytes) : Res Nat :=
  walkArrays data ["MemberStateCertificate", "VUCertificate", "VehicleIdentificationNumber",
    "VehicleRegistrationIdentification", "CurrentDateTime", "VuDownloadablePeriod", "CardSlotsStatus",
    "VuDownloadActivityData", "VuCompanyLocks", "VuControlActivity", "Signature"] 0

/-- `sizeOfOverviewGen2V2`, internal/vu/overview.go:181-262. -/
def sizeOfOverviewG2V2 (data : Bytes) : Res Nat :=
  walkArrays data ["MemberStateCertificate", "VUCertificate", "VehicleIdentificationNumber",
    "VehicleRegistrationNumber", "CurrentDateTime", "VuDownloadablePeriod", "CardSlotsStatus",
    "VuDownloadActivityData", "VuCompanyLocks", "VuControlActivity", "Signature"] 0

/-- `sizeOfActivitiesGen1`, internal/vu/activities.go:52-110. -/
def sizeOfActivitiesGen1 (data : Bytes) : Res Nat := do
  let offset := 4 + 3
  let offset ← sizeCounted data offset 2 129 "insufficient data for noOfIWRecords"
  let offset ← sizeCounted data offset 2 2 "insufficient data for noOfActivityChanges"
  let offset ← sizeCounted data offset 1 28 "insufficient data for noOfPlaceRecords"
  let offset ← sizeCounted data offset 2 5 "insufficient data for noOfSpecificConditionRecords"
  return offset + 128

/-- `sizeOfActivitiesGen2V1`, internal/vu/activities.go:113-173. -/
def sizeOfActivitiesG2V1 (data : Bytes) : Res Nat :=
  walkArrays data ["DateOfDayDownloaded", "OdometerValueMidnight", "VuCardIW", "VuActivityDaily",
    "VuPlaceDailyWorkPeriod", "VuSpecificCondition", "VuGNSSAD", "Signature"] 0

/-- `sizeOfActivitiesGen2V2`, internal/vu/activities.go:177-251. -/
def sizeOfActivitiesG2V2 (data : Bytes) : Res Nat :=
  walkArrays data ["DateOfDayDownloaded", "OdometerValueMidnight", "VuCardIW", "VuActivityDaily",
    "VuPlaceDailyWorkPeriod", "VuSpecificCondition", "VuGNSSAD", "VuBorderCrossing", "VuLoadUnload",
    "Signature"] 0

/-- `sizeOfEventsAndFaultsGen1`, internal/vu/events_faults.go:76-130. -/
def sizeOfEventsGen1 (data : Bytes) : Res Nat := do
  let offset ← sizeCounted data 0 1 82 "insufficient data for noOfVuFaults"
  let offset ← sizeCounted data offset 1 83 "insufficient data for noOfVuEvents"
  let offset := offset + 9
  let offset ← sizeCounted data offset 1 31 "insufficient data for noOfVuOverSpeedingEvents"
  let offset ← sizeCounted data offset 1 98 "insufficient data for noOfVuTimeAdjRecords"
  return offset + 128

/-- `sizeOfEventsAndFaultsGen2V1`, internal/vu/events_faults.go:133-179. -/
def sizeOfEventsG2V1 (data : Bytes) : Res Nat :=
  walkArrays data ["VuFault", "VuEvent", "VuOverSpeedingControlData", "VuOverSpeedingEvent",
    "VuTimeAdjustment", "Signature"] 0

/-- `sizeOfEventsAndFaultsGen2V2`, internal/vu/events_faults.go:183-236. -/
def sizeOfEventsG2V2 (data : Bytes) : Res Nat :=
  walkArrays data ["VuFault", "VuEvent", "VuOverSpeedingControlData", "VuOverSpeedingEvent",
    "VuTimeAdjustment", "VuTimeAdjustmentGNSS", "Signature"] 0

/-- `sizeOfDetailedSpeedGen1`, internal/vu/detailed_speed.go:36-55. -/
def sizeOfSpeedGen1 (data : Bytes) : Res Nat := do
  let offset ← sizeCounted data 0 2 64 "insufficient data for noOfSpeedBlocks"
  return offset + 128

/-- `sizeOfDetailedSpeedGen2`, internal/vu/detailed_speed.go:58-76. -/
def sizeOfSpeedGen2 (data : Bytes) : Res Nat :=
  walkArrays data ["VuDetailedSpeedBlock", "Signature"] 0

/-- `sizeOfTechnicalDataGen1`, internal/vu/technical_data.go:66-90. -/
def sizeOfTechnicalGen1 (data : Bytes) : Res Nat := do
  let offset ← sizeCounted data (116 + 20) 1 167 "insufficient data for noOfVuCalibrationRecords"
  return offset + 128

/-- `sizeOfTechnicalDataGen2V1`, internal/vu/technical_data.go:93-125. -/
def sizeOfTechnicalG2V1 (data : Bytes) : Res Nat :=
  walkArrays data ["VuIdentification", "SensorPaired", "VuCalibration", "Signature"] 0

/-- `sizeOfTechnicalDataGen2V2`, internal/vu/technical_data.go:128-181. -/
def sizeOfTechnicalG2V2 (data : Bytes) : Res Nat :=
  walkArrays data ["VuIdentification", "SensorPaired", "SensorExternalGNSSCoupled", "VuCalibration",
    "VuITSConsent", "VuPowerSupplyInterruption", "Signature"] 0

/-- The loop of `sizeOfCardDownload`, internal/vu/card_download.go:25-45. Every round moves the
offset by at least 5, so `fuel := len(data)` is never used up. -/
def cardDownloadLoop (data : Bytes) : (fuel : Nat) → (offset : Nat) → Res Nat
  | 0, offset => .ok offset
  | fuel + 1, offset =>
    if offset < data.length then do
      let rest ← from? data offset
      if rest.length < 5 then .ok offset
      else do
        let length := beNat (← sl? data (offset + 3) (offset + 5))
        let recordSize := 5 + length
        if offset + recordSize > data.length then .err "incomplete TLV record"
        cardDownloadLoop data fuel (offset + recordSize)
    else .ok offset

/-- `sizeOfCardDownload`, internal/vu/card_download.go:21-48. -/
def sizeOfCardDownload (data : Bytes) : Res Nat := cardDownloadLoop data data.length 0

/-- `sizeOfTransferValue`, internal/vu/raw_vehicle_unit_file.go:71-90, with the dispatchers
`sizeOfOverview`, `sizeOfActivities`, `sizeOfEventsAndFaults`, `sizeOfDetailedSpeed` and
`sizeOfTechnicalData` (overview.go:12-23, activities.go:21-32, events_faults.go:12-23,
detailed_speed.go:14-23, technical_data.go:13-24) unfolded. -/
def sizeOfTransferValue (data : Bytes) : TransferType → Res Nat
  | .downloadInterfaceVersion => sizeOfDownloadInterfaceVersion data
  | .overviewGen1 => sizeOfOverviewGen1 data
  | .overviewG2V1 => sizeOfOverviewG2V1 data
  | .overviewG2V2 => sizeOfOverviewG2V2 data
  | .activitiesGen1 => sizeOfActivitiesGen1 data
  | .activitiesG2V1 => sizeOfActivitiesG2V1 data
  | .activitiesG2V2 => sizeOfActivitiesG2V2 data
  | .eventsGen1 => sizeOfEventsGen1 data
  | .eventsG2V1 => sizeOfEventsG2V1 data
  | .eventsG2V2 => sizeOfEventsG2V2 data
  | .speedGen1 => sizeOfSpeedGen1 data
  | .speedGen2 => sizeOfSpeedGen2 data
  | .technicalGen1 => sizeOfTechnicalGen1 data
  | .technicalG2V1 => sizeOfTechnicalG2V1 data
  | .technicalG2V2 => sizeOfTechnicalG2V2 data
  | .cardDownload => sizeOfCardDownload data

/-! ## The slicing loop -/

/-- `RawVehicleUnitFile_Record` (vu/v1/raw_vehicle_unit_file.proto). -/
structure VuRec where
  tag : Nat
  type : TransferType
  generation : Generation
  value : Bytes
  deriving Repr, DecidableEq

/-- The loop of `unmarshalRawVehicleUnitFile`, internal/vu/raw_vehicle_unit_file.go:29-64, on the
bytes from the current offset. Every round moves the offset by at least 2, so `fuel := len(data)` is
never used up. -/
def rawVuLoop : (fuel : Nat) → (data : Bytes) → Res (List VuRec)
  | 0, _ => .ok []
  | fuel + 1, data =>
    if data.length = 0 then .ok []
    else if data.length < 2 then .err "insufficient data for tag"
    else do
      let tag := beNat (← sl? data 0 2)
      match findTransferTypeByTag tag with
      | none => .err "unknown tag"
      | some transferType => do
        let rest ← from? data 2
        let valueSize ← sizeOfTransferValue rest transferType
        if valueSize > rest.length then .err "insufficient data for value"
        let value ← sl? rest 0 valueSize
        let records ← rawVuLoop fuel (rest.drop valueSize)
        return { tag := tag, type := transferType,
                 generation := generationFromTransferType transferType, value := value } :: records

/-- `unmarshalRawVehicleUnitFile`, internal/vu/raw_vehicle_unit_file.go:25-67. -/
def unmarshalRawVehicleUnitFile (data : Bytes) : Res (List VuRec) := rawVuLoop data.length data

end Tacho
