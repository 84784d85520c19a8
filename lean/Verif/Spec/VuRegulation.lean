import Verif.Spec.Regulation
import Verif.Spec.VuLayout
import Verif.Model.Enums
/-!
# The vehicle unit messages of the regulation

Transcribed from docs/regulation/chapters/11-response-message-content.md (Appendix 7, DDP_029 to
DDP_033) and, for the structures inside, docs/regulation/chapters/03-data-dictionary.md (Appendix 1).
-/

namespace Tacho.Spec.Regulation

/-! ## Generation 1: structures of the data dictionary, with sizes in bytes -/

/-- 2.193. -/
def vuDownloadablePeriod : Layout := [("minDownloadableTime", 4), ("maxDownloadableTime", 4)]

/-- 2.195. -/
def vuDownloadActivityData : Layout :=
  [("downloadingTime", 4), ("fullCardNumber", 18), ("companyOrWorkshopName", 36)]

/-- 2.184. -/
def vuCompanyLocksRecord : Layout :=
  [("lockInTime", 4), ("lockOutTime", 4), ("companyName", 36), ("companyAddress", 36), ("companyCardNumber", 18)]

/-- 2.187. -/
def vuControlActivityRecord : Layout :=
  [("controlType", 1), ("controlTime", 4), ("controlCardNumber", 18), ("downloadPeriodBeginTime", 4),
   ("downloadPeriodEndTime", 4)]

/-- 2.177. -/
def vuCardIWRecord : Layout :=
  [("cardHolderName", 72), ("fullCardNumber", 18), ("cardExpiryDate", 4), ("cardInsertionTime", 4),
   ("vehicleOdometerValueAtInsertion", 3), ("cardSlotNumber", 1), ("cardWithdrawalTime", 4),
   ("vehicleOdometerValueAtWithdrawal", 3), ("previousVehicleInfo", 19), ("manualInputFlag", 1)]

/-- 2.219. -/
def vuPlaceDailyWorkPeriodRecord : Layout := [("fullCardNumber", 18), ("placeRecord", 10)]

/-- 2.201. -/
def vuFaultRecord : Layout :=
  [("faultType", 1), ("faultRecordPurpose", 1), ("faultBeginTime", 4), ("faultEndTime", 4),
   ("cardNumberDriverSlotBegin", 18), ("cardNumberCodriverSlotBegin", 18), ("cardNumberDriverSlotEnd", 18),
   ("cardNumberCodriverSlotEnd", 18)]

/-- 2.198. -/
def vuEventRecord : Layout :=
  [("eventType", 1), ("eventRecordPurpose", 1), ("eventBeginTime", 4), ("eventEndTime", 4),
   ("cardNumberDriverSlotBegin", 18), ("cardNumberCodriverSlotBegin", 18), ("cardNumberDriverSlotEnd", 18),
   ("cardNumberCodriverSlotEnd", 18), ("similarEventsNumber", 1)]

/-- 2.212. -/
def vuOverSpeedingControlData : Layout :=
  [("lastOverspeedControlTime", 4), ("firstOverspeedSince", 4), ("numberOfOverspeedSince", 1)]

/-- 2.215. -/
def vuOverSpeedingEventRecord : Layout :=
  [("eventType", 1), ("eventRecordPurpose", 1), ("eventBeginTime", 4), ("eventEndTime", 4), ("maxSpeedValue", 1),
   ("averageSpeedValue", 1), ("cardNumberDriverSlotBegin", 18), ("similarEventsNumber", 1)]

/-- 2.232. -/
def vuTimeAdjustmentRecord : Layout :=
  [("oldTimeValue", 4), ("newTimeValue", 4), ("workshopName", 36), ("workshopAddress", 36), ("workshopCardNumber", 18)]

/-- 2.190. -/
def vuDetailedSpeedBlock : Layout := [("speedBlockBeginDate", 4), ("speedsPerSecond", 60)]

/-- 2.205. -/
def vuIdentification : Layout :=
  [("vuManufacturerName", 36), ("vuManufacturerAddress", 36), ("vuPartNumber", 16), ("vuSerialNumber", 8),
   ("vuSoftwareIdentification", 8), ("vuManufacturingDate", 4), ("vuApprovalNumber", 8)]

/-- 2.144. -/
def sensorPaired : Layout :=
  [("sensorSerialNumber", 8), ("sensorApprovalNumber", 8), ("sensorPairingDateFirst", 4)]

/-- 2.174. -/
def vuCalibrationRecord : Layout :=
  [("calibrationPurpose", 1), ("workshopName", 36), ("workshopAddress", 36), ("workshopCardNumber", 18),
   ("workshopCardExpiryDate", 4), ("vehicleIdentificationNumber", 17), ("vehicleRegistrationIdentification", 15),
   ("wVehicleCharacteristicConstant", 2), ("kConstantOfRecordingEquipment", 2), ("lTyreCircumference", 2),
   ("tyreSize", 15), ("authorisedSpeed", 1), ("oldOdometerValue", 3), ("newOdometerValue", 3), ("oldTimeValue", 4),
   ("newTimeValue", 4), ("nextCalibrationDate", 4)]

/-! ## Generation 1: messages -/

/-- A data element of a message: of a fixed size, or a number of `width` bytes followed by that many
records. -/
inductive Element where
  | one (name : String) (size : Nat)
  | many (name : String) (width : Nat) (record : Layout)

/-- The data elements of a message, in order. -/
abbrev Message := List Element

def Element.name : Element → String
  | .one n _ => n
  | .many n _ _ => n

/-- The number of bytes the element takes when it stands at the beginning of `b`. -/
def Element.extent : Element → Bytes → Nat
  | .one _ size, _ => size
  | .many _ width record, b => width + beNat (b.take width) * record.size

/-- `b` has exactly the length that the message announces. -/
def Message.Fits : Message → Bytes → Prop
  | [], b => b = []
  | e :: es, b => (∀ n w r, e = .many n w r → w ≤ b.length) ∧ e.extent b ≤ b.length ∧ Message.Fits es (b.drop (e.extent b))

/-- The bytes of an element of the message `v`. -/
def Message.get : Message → String → Bytes → Bytes
  | [], _, _ => []
  | e :: es, name, b => if e.name = name then b.take (e.extent b) else Message.get es name (b.drop (e.extent b))

/-- The records of an element of the message `v`, in order. -/
def Message.records : Message → String → Bytes → List Bytes
  | [], _, _ => []
  | e :: es, name, b =>
    if e.name = name then
      match e with
      | .one _ _ => []
      | .many _ width record =>
        (List.range (beNat (b.take width))).map fun i => (b.drop (width + i * record.size)).take record.size
    else Message.records es name (b.drop (e.extent b))

/-- DDP_029, TREP 01. -/
def overviewG1 : Message :=
  [.one "MemberStateCertificate" 194, .one "VUCertificate" 194, .one "VehicleIdentificationNumber" 17,
   .one "VehicleRegistrationIdentification" 15, .one "CurrentDateTime" 4,
   .one "VuDownloadablePeriod" vuDownloadablePeriod.size, .one "CardSlotsStatus" 1,
   .one "VuDownloadActivityData" vuDownloadActivityData.size, .many "VuCompanyLocksData" 1 vuCompanyLocksRecord,
   .many "VuControlActivityData" 1 vuControlActivityRecord, .one "Signature" 128]

/-- DDP_030, TREP 02. -/
def activitiesG1 : Message :=
  [.one "TimeReal" 4, .one "OdometerValueMidnight" 3, .many "VuCardIWData" 2 vuCardIWRecord,
   .many "VuActivityDailyData" 2 [("ActivityChangeInfo", 2)],
   .many "VuPlaceDailyWorkPeriodData" 1 vuPlaceDailyWorkPeriodRecord,
   .many "VuSpecificConditionData" 2 specificConditionRecord, .one "Signature" 128]

/-- DDP_031, TREP 03. -/
def eventsG1 : Message :=
  [.many "VuFaultData" 1 vuFaultRecord, .many "VuEventData" 1 vuEventRecord,
   .one "VuOverSpeedingControlData" vuOverSpeedingControlData.size,
   .many "VuOverSpeedingEventData" 1 vuOverSpeedingEventRecord, .many "VuTimeAdjustmentData" 1 vuTimeAdjustmentRecord,
   .one "Signature" 128]

/-- DDP_032, TREP 04. -/
def speedG1 : Message := [.many "VuDetailedSpeedData" 2 vuDetailedSpeedBlock, .one "Signature" 128]

/-- DDP_033, TREP 05. -/
def technicalG1 : Message :=
  [.one "VuIdentification" vuIdentification.size, .one "SensorPaired" sensorPaired.size,
   .many "VuCalibrationData" 1 vuCalibrationRecord, .one "Signature" 128]

/-- The Gen1 messages by transfer type. -/
def messageG1 : TransferType → Option Message
  | .overviewGen1 => some overviewG1
  | .activitiesGen1 => some activitiesG1
  | .eventsGen1 => some eventsG1
  | .speedGen1 => some speedG1
  | .technicalGen1 => some technicalG1
  | _ => none

/-! ## Generation 2: the record arrays of each message, with the record types of 2.120 -/

/-- The record arrays of a generation 2 message, in order. The table of TREP 35 is not legible in the
copy of the regulation that belongs to the code base (it is a picture), so it is left out. -/
def arraysG2 : TransferType → Option (List (String × UInt8))
  | .overviewG2V1 => some
    [("MemberStateCertificate", 0x04), ("VUCertificate", 0x0F), ("VehicleIdentificationNumber", 0x0A),
     ("VehicleRegistrationIdentification", 0x24), ("CurrentDateTime", 0x03), ("VuDownloadablePeriod", 0x13),
     ("CardSlotsStatus", 0x02), ("VuDownloadActivityData", 0x14), ("VuCompanyLocks", 0x10),
     ("VuControlActivity", 0x11), ("Signature", 0x08)]
  | .overviewG2V2 => some
    [("MemberStateCertificate", 0x04), ("VUCertificate", 0x0F), ("VehicleIdentificationNumber", 0x0A),
     ("VehicleRegistrationNumber", 0x0B), ("CurrentDateTime", 0x03), ("VuDownloadablePeriod", 0x13),
     ("CardSlotsStatus", 0x02), ("VuDownloadActivityData", 0x14), ("VuCompanyLocks", 0x10),
     ("VuControlActivity", 0x11), ("Signature", 0x08)]
  | .activitiesG2V1 => some
    [("DateOfDayDownloaded", 0x06), ("OdometerValueMidnight", 0x05), ("VuCardIW", 0x0D), ("VuActivityDaily", 0x01),
     ("VuPlaceDailyWorkPeriod", 0x1C), ("VuGNSSAD", 0x16), ("VuSpecificCondition", 0x09), ("Signature", 0x08)]
  | .activitiesG2V2 => some
    [("DateOfDayDownloaded", 0x06), ("OdometerValueMidnight", 0x05), ("VuCardIW", 0x0D), ("VuActivityDaily", 0x01),
     ("VuPlaceDailyWorkPeriod", 0x1C), ("VuGNSSAD", 0x16), ("VuSpecificCondition", 0x09),
     ("VuBorderCrossing", 0x22), ("VuLoadUnload", 0x23), ("Signature", 0x08)]
  | .eventsG2V1 | .eventsG2V2 => some
    [("VuFault", 0x18), ("VuEvent", 0x15), ("VuOverSpeedingControlData", 0x1A), ("VuOverSpeedingEvent", 0x1B),
     ("VuTimeAdjustment", 0x1E), ("Signature", 0x08)]
  | .speedGen2 => some [("VuDetailedSpeedBlock", 0x12), ("Signature", 0x08)]
  | .technicalG2V1 => some
    [("VuIdentification", 0x19), ("VuSensorPaired", 0x20), ("VuSensorExternalGNSSCoupled", 0x21),
     ("VuCalibration", 0x0C), ("VuCard", 0x0E), ("VuITSConsent", 0x17), ("VuPowerSupplyInterruption", 0x1F),
     ("Signature", 0x08)]
  | _ => none

/-- One record array: type, size of a record, number of records, and the records. -/
def IsArray (type : UInt8) (b : Bytes) : Prop :=
  ∃ (size count : Nat) (records : Bytes), 1 ≤ size ∧ size < 65536 ∧ count < 65536
    ∧ b = [type] ++ beBytes 2 size ++ beBytes 2 count ++ records ∧ records.length = size * count

/-- The record arrays of these types, one after the other. -/
def AreArrays : List UInt8 → Bytes → Prop
  | [], b => b = []
  | t :: ts, b => ∃ x y, b = x ++ y ∧ IsArray t x ∧ AreArrays ts y

/-- `v` is a complete message of this type, as the regulation has it (DDP_028a for the interface version). -/
def IsMessage (t : TransferType) (v : Bytes) : Prop :=
  (∃ m, messageG1 t = some m ∧ m.Fits v) ∨ (∃ as, arraysG2 t = some as ∧ AreArrays (as.map Prod.snd) v)
    ∨ (t = .downloadInterfaceVersion ∧ v = [2, 2])

/-- The card types that the parser takes: driver, workshop and company card, but not control card (2.67). -/
def ReadableCard (number : Bytes) : Prop := ∃ b, fullCardNumber.get "cardType" number = [b] ∧ (b = 1 ∨ b = 2 ∨ b = 4)

/-- All card numbers of an overview are of readable card types. -/
def ReadableOverview (v : Bytes) : Prop :=
  ReadableCard (vuDownloadActivityData.get "fullCardNumber" (overviewG1.get "VuDownloadActivityData" v))
  ∧ (∀ b ∈ overviewG1.records "VuCompanyLocksData" v, ReadableCard (vuCompanyLocksRecord.get "companyCardNumber" b))
  ∧ (∀ b ∈ overviewG1.records "VuControlActivityData" v, ReadableCard (vuControlActivityRecord.get "controlCardNumber" b))

/-- The cards inserted are of readable types, the slots are 0 or 1, and places are given with codes that the
parser knows. -/
def ReadableDay (v : Bytes) : Prop :=
  (∀ b ∈ activitiesG1.records "VuCardIWData" v, ReadableCard (vuCardIWRecord.get "fullCardNumber" b)
    ∧ (vuCardIWRecord.get "cardSlotNumber" b = [0] ∨ vuCardIWRecord.get "cardSlotNumber" b = [1]))
  ∧ (∀ b ∈ activitiesG1.records "VuPlaceDailyWorkPeriodData" v,
      (∃ x, placeRecordG1.get "entryTypeDailyWorkPeriod" (vuPlaceDailyWorkPeriodRecord.get "placeRecord" b) = [x]
        ∧ ∃ e, (e, some x.toNat) ∈ entryTypeDailyWorkPeriodTable)
      ∧ (∃ x, placeRecordG1.get "dailyWorkPeriodCountry" (vuPlaceDailyWorkPeriodRecord.get "placeRecord" b) = [x]
        ∧ ∃ e, (e, some x.toNat) ∈ nationNumericTable))

end Tacho.Spec.Regulation
