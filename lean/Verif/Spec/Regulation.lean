import Verif.Model.EnumNames
import Verif.Model.CardTables
import Verif.Spec.Tlv
/-!
# What the regulation says

Transcribed by hand from the text of Regulation (EU) 2016/799, Annex 1C, which the repository carries in
docs/regulation/chapters. Nothing here is taken from the code. "DD" is 03-data-dictionary.md (Appendix 1),
"FS" is 05-tachograph-cards-file-structure.md (Appendix 2, chapter 4).
-/

namespace Tacho.Spec.Regulation

/-! ## Coded bytes -/

/-- One line of a value assignment: the byte, the meaning in the words of the regulation, the name the API
uses for that meaning, and the first version that assigns it (1 generation 1, 2 generation 2 version 1,
3 generation 2 version 2). -/
structure Code where
  byte : Nat
  meaning : String
  name : String
  since : Nat
  deriving Repr, DecidableEq

/-- A value assignment. Bytes without a line are RFU or manufacturer specific. -/
abbrev Dictionary := List Code

/-- The name of the meaning of a byte, if the regulation gives it one. -/
def Dictionary.nameOf (D : Dictionary) (b : UInt8) : Option String :=
  (D.find? (fun c => c.byte == b.toNat)).map (·.name)

/-- 2.70 EventFaultType, lines 1712-1915 (Generation 1, Generation 2 version 1, Generation 2 version 2). The codes not listed are RFU or manufacturer specific. -/
def eventFault : Dictionary :=
  [⟨0x00, "General events: No further details", "GENERAL_NO_FURTHER_DETAILS", 1⟩,
   ⟨0x01, "General events: Insertion of a non valid card", "GENERAL_INSERTION_OF_NON_VALID_CARD", 1⟩,
   ⟨0x02, "General events: Card conflict", "GENERAL_CARD_CONFLICT", 1⟩,
   ⟨0x03, "General events: Time overlap", "GENERAL_TIME_OVERLAP", 1⟩,
   ⟨0x04, "General events: Driving without an appropriate card", "GENERAL_DRIVING_WITHOUT_APPROPRIATE_CARD", 1⟩,
   ⟨0x05, "General events: Card insertion while driving", "GENERAL_CARD_INSERTION_WHILE_DRIVING", 1⟩,
   ⟨0x06, "General events: Last card session not correctly closed", "GENERAL_LAST_CARD_SESSION_NOT_CORRECTLY_CLOSED", 1⟩,
   ⟨0x07, "General events: Over speeding", "GENERAL_OVER_SPEEDING", 1⟩,
   ⟨0x08, "General events: Power supply interruption", "GENERAL_POWER_SUPPLY_INTERRUPTION", 1⟩,
   ⟨0x09, "General events: Motion data error", "GENERAL_MOTION_DATA_ERROR", 1⟩,
   ⟨0x0A, "General events: Vehicle Motion Conflict", "GENERAL_VEHICLE_MOTION_CONFLICT", 1⟩,
   ⟨0x0B, "General events: Time conflict (GNSS versus VU internal clock)", "GENERAL_TIME_CONFLICT_GNSS_VS_VU", 2⟩,
   ⟨0x0C, "General events: Communication error with the remote communication facility", "GENERAL_COMM_ERROR_REMOTE_COMM_FACILITY", 2⟩,
   ⟨0x0D, "General events: Absence of position information from GNSS receiver", "GENERAL_ABSENCE_OF_POSITION_INFO_FROM_GNSS", 2⟩,
   ⟨0x0E, "General events: Communication error with the external GNSS facility", "GENERAL_COMM_ERROR_EXTERNAL_GNSS_FACILITY", 2⟩,
   ⟨0x0F, "General events: GNSS anomaly", "GENERAL_GNSS_ANOMALY", 3⟩,
   ⟨0x10, "Vehicle unit related security breach attempt events: No further details", "VU_SEC_NO_FURTHER_DETAILS", 1⟩,
   ⟨0x11, "Vehicle unit: Motion sensor authentication failure", "VU_SEC_MOTION_SENSOR_AUTH_FAILURE", 1⟩,
   ⟨0x12, "Vehicle unit: Tachograph card authentication failure", "VU_SEC_TACHOGRAPH_CARD_AUTH_FAILURE", 1⟩,
   ⟨0x13, "Vehicle unit: Unauthorised change of motion sensor", "VU_SEC_UNAUTHORISED_CHANGE_OF_MOTION_SENSOR", 1⟩,
   ⟨0x14, "Vehicle unit: Card data input integrity error", "VU_SEC_CARD_DATA_INPUT_INTEGRITY_ERROR", 1⟩,
   ⟨0x15, "Vehicle unit: Stored user data integrity error", "VU_SEC_STORED_USER_DATA_INTEGRITY_ERROR", 1⟩,
   ⟨0x16, "Vehicle unit: Internal data transfer error", "VU_SEC_INTERNAL_DATA_TRANSFER_ERROR", 1⟩,
   ⟨0x17, "Vehicle unit: Unauthorised case opening", "VU_SEC_UNAUTHORISED_CASE_OPENING", 1⟩,
   ⟨0x18, "Vehicle unit: Hardware sabotage", "VU_SEC_HARDWARE_SABOTAGE", 1⟩,
   ⟨0x19, "Vehicle unit: Tamper detection of GNSS", "VU_SEC_TAMPER_DETECTION_OF_GNSS", 2⟩,
   ⟨0x1A, "Vehicle unit: External GNSS facility authentication failure", "VU_SEC_EXTERNAL_GNSS_FACILITY_AUTH_FAILURE", 2⟩,
   ⟨0x1B, "Vehicle unit: External GNSS facility certificate expired", "VU_SEC_EXTERNAL_GNSS_FACILITY_CERT_EXPIRED", 2⟩,
   ⟨0x1C, "Vehicle unit: Inconsistency between motion data and stored driver activity data", "VU_SEC_INCONSISTENCY_MOTION_VS_ACTIVITY", 3⟩,
   ⟨0x20, "Sensor related security breach attempt events: No further details", "SENSOR_SEC_NO_FURTHER_DETAILS", 1⟩,
   ⟨0x21, "Sensor: Authentication failure", "SENSOR_SEC_AUTHENTICATION_FAILURE", 1⟩,
   ⟨0x22, "Sensor: Stored data integrity error", "SENSOR_SEC_STORED_DATA_INTEGRITY_ERROR", 1⟩,
   ⟨0x23, "Sensor: Internal data transfer error", "SENSOR_SEC_INTERNAL_DATA_TRANSFER_ERROR", 1⟩,
   ⟨0x24, "Sensor: Unauthorised case opening", "SENSOR_SEC_UNAUTHORISED_CASE_OPENING", 1⟩,
   ⟨0x25, "Sensor: Hardware sabotage", "SENSOR_SEC_HARDWARE_SABOTAGE", 1⟩,
   ⟨0x30, "Recording equipment faults: No further details", "FAULT_REC_EQ_NO_FURTHER_DETAILS", 1⟩,
   ⟨0x31, "Recording equipment: VU internal fault", "FAULT_REC_EQ_VU_INTERNAL_FAULT", 1⟩,
   ⟨0x32, "Recording equipment: Printer fault", "FAULT_REC_EQ_PRINTER_FAULT", 1⟩,
   ⟨0x33, "Recording equipment: Display fault", "FAULT_REC_EQ_DISPLAY_FAULT", 1⟩,
   ⟨0x34, "Recording equipment: Downloading fault", "FAULT_REC_EQ_DOWNLOADING_FAULT", 1⟩,
   ⟨0x35, "Recording equipment: Sensor fault", "FAULT_REC_EQ_SENSOR_FAULT", 1⟩,
   ⟨0x36, "Recording equipment: Internal GNSS receiver", "FAULT_REC_EQ_INTERNAL_GNSS_RECEIVER", 2⟩,
   ⟨0x37, "Recording equipment: External GNSS facility", "FAULT_REC_EQ_EXTERNAL_GNSS_FACILITY", 2⟩,
   ⟨0x38, "Recording equipment: Remote communication facility", "FAULT_REC_EQ_REMOTE_COMM_FACILITY", 2⟩,
   ⟨0x39, "Recording equipment: ITS interface", "FAULT_REC_EQ_ITS_INTERFACE", 2⟩,
   ⟨0x3A, "Recording equipment: Internal Sensor Fault", "FAULT_REC_EQ_INTERNAL_SENSOR_FAULT", 3⟩,
   ⟨0x40, "Card faults: No further details", "FAULT_CARD_NO_FURTHER_DETAILS", 1⟩]

/-- 2.67 EquipmentType, lines 1633-1675. The values 20 to 255 are RFU (8 to 255 for generation 1). -/
def equipment : Dictionary :=
  [⟨0x00, "Reserved (designates a Member State or Europe in the CHA field)", "RESERVED_MEMBER_STATE_OR_EUROPE", 1⟩,
   ⟨0x01, "Driver Card", "DRIVER_CARD", 1⟩,
   ⟨0x02, "Workshop Card", "WORKSHOP_CARD", 1⟩,
   ⟨0x03, "Control Card", "CONTROL_CARD", 1⟩,
   ⟨0x04, "Company Card", "COMPANY_CARD", 1⟩,
   ⟨0x05, "Manufacturing Card", "MANUFACTURING_CARD", 1⟩,
   ⟨0x06, "Vehicle Unit", "VEHICLE_UNIT", 1⟩,
   ⟨0x07, "Motion Sensor", "MOTION_SENSOR", 1⟩,
   ⟨0x08, "GNSS Facility", "GNSS_FACILITY", 2⟩,
   ⟨0x09, "Remote Communication Module", "REMOTE_COMMUNICATION_MODULE", 2⟩,
   ⟨0x0A, "ITS interface module", "ITS_INTERFACE_MODULE", 2⟩,
   ⟨0x0B, "Plaque", "PLAQUE", 2⟩,
   ⟨0x0C, "M1/N1 Adapter", "M1_N1_ADAPTER", 2⟩,
   ⟨0x0D, "European Root CA (ERCA)", "EUROPEAN_ROOT_CA", 2⟩,
   ⟨0x0E, "Member State CA (MSCA)", "MEMBER_STATE_CA", 2⟩,
   ⟨0x0F, "External GNSS connection", "EXTERNAL_GNSS_CONNECTION", 2⟩,
   ⟨0x10, "Unused", "UNUSED", 2⟩,
   ⟨0x11, "Driver Card (Sign)", "DRIVER_CARD_SIGN", 2⟩,
   ⟨0x12, "Workshop Card (Sign)", "WORKSHOP_CARD_SIGN", 2⟩,
   ⟨0x13, "Vehicle Unit (Sign)", "VEHICLE_UNIT_SIGN", 2⟩]

/-- 2.69 EventFaultRecordPurpose, lines 1691-1710. '08'H to '7F'H are RFU, '80'H to 'FF'H manufacturer specific. -/
def recordPurpose : Dictionary :=
  [⟨0x00, "one of the 10 most recent (or last) events or faults", "TEN_MOST_RECENT", 1⟩,
   ⟨0x01, "the longest event for one of the last 10 days of occurrence", "LONGEST_IN_LAST_10_DAYS", 1⟩,
   ⟨0x02, "one of the 5 longest events over the last 365 days", "FIVE_LONGEST_IN_LAST_365_DAYS", 1⟩,
   ⟨0x03, "the last event for one of the last 10 days of occurrence", "LAST_IN_LAST_10_DAYS", 1⟩,
   ⟨0x04, "the most serious event for one of the last 10 days of occurrence", "MOST_SERIOUS_IN_LAST_10_DAYS", 1⟩,
   ⟨0x05, "one of the 5 most serious events over the last 365 days", "FIVE_MOST_SERIOUS_IN_LAST_365_DAYS", 1⟩,
   ⟨0x06, "the first event or fault having occurred after the last calibration", "FIRST_AFTER_LAST_CALIBRATION", 1⟩,
   ⟨0x07, "an active/on-going event or fault", "ACTIVE_OR_ONGOING", 1⟩]

/-- 2.8 CalibrationPurpose, lines 486-513. '07'H to '7F'H are RFU, the rest manufacturer specific. -/
def calibration : Dictionary :=
  [⟨0x00, "reserved value", "CALIBRATION_PURPOSE_RESERVED", 1⟩,
   ⟨0x01, "activation", "ACTIVATION", 1⟩,
   ⟨0x02, "first installation", "FIRST_INSTALLATION", 1⟩,
   ⟨0x03, "installation", "INSTALLATION", 1⟩,
   ⟨0x04, "periodic inspection", "PERIODIC_INSPECTION", 1⟩,
   ⟨0x05, "entry of VRN by company", "VRN_ENTRY_BY_COMPANY", 2⟩,
   ⟨0x06, "time adjustment without calibration", "TIME_ADJUSTMENT", 2⟩]

/-- 2.33 CardSlotNumber, lines 957-964. -/
def cardSlot : Dictionary :=
  [⟨0x00, "driverSlot", "DRIVER_SLOT", 1⟩,
   ⟨0x01, "co-driverSlot", "CO_DRIVER_SLOT", 1⟩]

/-- 2.47 CompanyActivityType, lines 1234-1243. -/
def companyActivity : Dictionary :=
  [⟨0x01, "card downloading", "CARD_DOWNLOADING", 1⟩,
   ⟨0x02, "VU downloading", "VU_DOWNLOADING", 1⟩,
   ⟨0x03, "VU lock-in", "VU_LOCK_IN", 1⟩,
   ⟨0x04, "VU lock-out", "VU_LOCK_OUT", 1⟩]

/-- 2.1 ActivityChangeInfo, lines 369-400: the bits 'aa'. -/
def driverActivity : Dictionary :=
  [⟨0x00, "BREAK/REST", "BREAK_REST", 1⟩,
   ⟨0x01, "AVAILABILITY", "AVAILABILITY", 1⟩,
   ⟨0x02, "WORK", "WORK", 1⟩,
   ⟨0x03, "DRIVING", "DRIVING", 1⟩]

/-- 2.1 ActivityChangeInfo, lines 369-400: the bit 'c' while a card is inserted. -/
def drivingStatus : Dictionary :=
  [⟨0x00, "SINGLE", "SINGLE", 1⟩,
   ⟨0x01, "CREW", "CREW", 1⟩]

/-- 2.90a LoadType, lines 2248-2263. '03'H to 'FF'H are RFU. -/
def loadType : Dictionary :=
  [⟨0x00, "Undefined load type", "NOT_DEFINED", 3⟩,
   ⟨0x01, "Goods", "GOODS", 3⟩,
   ⟨0x02, "Passengers", "PASSENGERS", 3⟩]

/-- 2.114a OperationType, lines 2567-2583. '00'H and '04'H to 'FF'H are RFU. -/
def operation : Dictionary :=
  [⟨0x01, "Load operation", "LOAD_OPERATION", 3⟩,
   ⟨0x02, "Unload operation", "UNLOAD_OPERATION", 3⟩,
   ⟨0x03, "Simultaneous load/unload operation", "SIMULTANEOUS_LOAD_UNLOAD_OPERATION", 3⟩]

/-- 2.117a PositionAuthenticationStatus, lines 2676-2682. '02'H to 'FF'H are RFU. -/
def positionAuth : Dictionary :=
  [⟨0x00, "Not Authenticated", "NOT_AUTHENTICATED", 3⟩,
   ⟨0x01, "Authenticated", "AUTHENTICATED", 3⟩]

/-- 2.34 CardSlotsStatus, lines 968-988: each half byte. -/
def slotCard : Dictionary :=
  [⟨0x00, "no card is inserted", "NO_CARD", 1⟩,
   ⟨0x01, "a driver card is inserted", "DRIVER_CARD_INSERTED", 1⟩,
   ⟨0x02, "a workshop card is inserted", "WORKSHOP_CARD_INSERTED", 1⟩,
   ⟨0x03, "a control card is inserted", "CONTROL_CARD_INSERTED", 1⟩,
   ⟨0x04, "a company card is inserted", "COMPANY_CARD_INSERTED", 1⟩]

/-- 2.154 SpecificConditionType, lines 3193-3222, the generation 2 assignment. '05'H to 'FF'H are RFU. -/
def specificCondition : Dictionary :=
  [⟨0x00, "RFU", "RFU", 1⟩,
   ⟨0x01, "Out of scope - Begin", "OUT_OF_SCOPE_BEGIN", 1⟩,
   ⟨0x02, "Out of scope - End", "OUT_OF_SCOPE_END", 1⟩,
   ⟨0x03, "Ferry / Train crossing - Begin", "FERRY_TRAIN_CROSSING_BEGIN", 2⟩,
   ⟨0x04, "Ferry / Train crossing - End", "FERRY_TRAIN_CROSSING_END", 2⟩]

/-- 4 CHARACTER SETS, lines 4872-4884: the code pages of character strings. -/
def codePage : Dictionary :=
  [⟨1, "ISO/IEC 8859-1 Latin-1 Western European", "ISO_8859_1", 1⟩,
   ⟨2, "ISO/IEC 8859-2 Latin-2 Central European", "ISO_8859_2", 1⟩,
   ⟨3, "ISO/IEC 8859-3 Latin-3 South European", "ISO_8859_3", 1⟩,
   ⟨5, "ISO/IEC 8859-5 Latin / Cyrillic", "ISO_8859_5", 1⟩,
   ⟨7, "ISO/IEC 8859-7 Latin / Greek", "ISO_8859_7", 1⟩,
   ⟨9, "ISO/IEC 8859-9 Latin-5 Turkish", "ISO_8859_9", 1⟩,
   ⟨13, "ISO/IEC 8859-13 Latin-7 Baltic Rim", "ISO_8859_13", 1⟩,
   ⟨15, "ISO/IEC 8859-15 Latin-9", "ISO_8859_15", 1⟩,
   ⟨16, "ISO/IEC 8859-16 Latin-10 South Eastern European", "ISO_8859_16", 1⟩,
   ⟨80, "KOI8-R Latin / Cyrillic", "KOI8_R", 1⟩,
   ⟨85, "KOI8-U Latin / Cyrillic", "KOI8_U", 1⟩]

/-- 2.66 EntryTypeDailyWorkPeriod. The table is missing from the copy of the regulation in the repository (DD lines
1615-1631); this is the assignment the library documents,
proto/wayplatform/connect/tachograph/dd/v1/entry_type_daily_work_period.proto:10-26. -/
def entryType : Dictionary :=
  [⟨0, "begin", "BEGIN", 1⟩,
   ⟨1, "end", "END", 1⟩,
   ⟨2, "beginGNSS", "BEGIN_GNSS", 2⟩,
   ⟨3, "endGNSS", "END_GNSS", 2⟩,
   ⟨4, "beginITS", "BEGIN_ITS", 2⟩,
   ⟨5, "endITS", "END_ITS", 2⟩]

/-- DD lines 592, 594, 4079, 4081: "'Rest of the World' (NationNumeric code 'FF'H)". The other nation codes are
not in the regulation but on a list of the interoperability laboratory (DD line 2373). -/
def restOfTheWorld : UInt8 := 0xFF

/-! ## Elementary files -/

/-- FS lines 7-16: the files of the master file. -/
def masterFile : List (String × Nat) :=
  [("ICC", 0x0002), ("IC", 0x0005), ("DIR", 0x2F00), ("ATR/INFO", 0x2F01), ("Extended_Length", 0x0006)]

/-- FS lines 67-83: driver card, generation 1 application. -/
def driverCardG1 : List (String × Nat) :=
  [("Application_Identification", 0x0501), ("Card_Certificate", 0xC100), ("CA_Certificate", 0xC108),
   ("Identification", 0x0520), ("Card_Download", 0x050E), ("Driving_Licence_Info", 0x0521),
   ("Events_Data", 0x0502), ("Faults_Data", 0x0503), ("Driver_Activity_Data", 0x0504),
   ("Vehicles_Used", 0x0505), ("Places", 0x0506), ("Current_Usage", 0x0507),
   ("Control_Activity_Data", 0x0508), ("Specific_Conditions", 0x0522)]

/-- FS lines 231-257: driver card, generation 2 application. -/
def driverCardG2 : List (String × Nat) :=
  [("Application_Identification", 0x0501), ("CardMA_Certificate", 0xC100), ("CardSignCertificate", 0xC101),
   ("CA_Certificate", 0xC108), ("Link_Certificate", 0xC109), ("Identification", 0x0520),
   ("Card_Download", 0x050E), ("Driving_Licence_Info", 0x0521), ("Events_Data", 0x0502),
   ("Faults_Data", 0x0503), ("Driver_Activity_Data", 0x0504), ("Vehicles_Used", 0x0505), ("Places", 0x0506),
   ("Current_Usage", 0x0507), ("Control_Activity_Data", 0x0508), ("Specific_Conditions", 0x0522),
   ("VehicleUnits_Used", 0x0523), ("GNSS_Places", 0x0524), ("Application_Identification_V2", 0x0525),
   ("Places_Authentication", 0x0526), ("GNSS_Places_Authentication", 0x0527), ("Border_Crossings", 0x0528),
   ("Load_Unload_Operations", 0x0529), ("Load_Type_Entries", 0x0530), ("VU_Configuration", 0x0540)]

/-- FS lines 500-516: workshop card, generation 1 application. -/
def workshopCardG1 : List (String × Nat) :=
  [("Application_Identification", 0x0501), ("Card_Certificate", 0xC100), ("CA_Certificate", 0xC108),
   ("Identification", 0x0520), ("Card_Download", 0x0509), ("Calibration", 0x050A),
   ("Sensor_Installation_Data", 0x050B), ("Events_Data", 0x0502), ("Faults_Data", 0x0503),
   ("Driver_Activity_Data", 0x0504), ("Vehicles_Used", 0x0505), ("Places", 0x0506),
   ("Current_Usage", 0x0507), ("Control_Activity_Data", 0x0508), ("Specific_Conditions", 0x0522)]

/-- FS lines 703-730: workshop card, generation 2 application. -/
def workshopCardG2 : List (String × Nat) :=
  [("Application_Identification", 0x0501), ("CardMA_Certificate", 0xC100), ("CardSignCertificate", 0xC101),
   ("CA_Certificate", 0xC108), ("Link_Certificate", 0xC109), ("Identification", 0x0520),
   ("Card_Download", 0x0509), ("Calibration", 0x050A), ("Sensor_Installation_Data", 0x050B),
   ("Events_Data", 0x0502), ("Faults_Data", 0x0503), ("Driver_Activity_Data", 0x0504),
   ("Vehicles_Used", 0x0505), ("Places", 0x0506), ("Current_Usage", 0x0507),
   ("Control_Activity_Data", 0x0508), ("Specific_Conditions", 0x0522), ("VehicleUnits_Used", 0x0523),
   ("GNSS_Places", 0x0524), ("Application_Identification_V2", 0x0525), ("Places_Authentication", 0x0526),
   ("GNSS_Places_Authentication", 0x0527), ("Border_Crossings", 0x0528), ("Load_Unload_Operations", 0x0529),
   ("Load_Type_Entries", 0x0530), ("Calibration_Add_Data", 0x0531), ("VU_Configuration", 0x0540)]

/-- FS lines 1021-1026: control card, generation 1 application. -/
def controlCardG1 : List (String × Nat) :=
  [("Application_Identification", 0x0501), ("Card_Certificate", 0xC100), ("CA_Certificate", 0xC108),
   ("Identification", 0x0520), ("Controller_Activity_Data", 0x050C)]

/-- FS lines 1102-1109: control card, generation 2 application. -/
def controlCardG2 : List (String × Nat) :=
  [("Application_Identification", 0x0501), ("CardMA_Certificate", 0xC100), ("CA_Certificate", 0xC108),
   ("Link_Certificate", 0xC109), ("Identification", 0x0520), ("Controller_Activity_Data", 0x050C),
   ("Application_Identification_V2", 0x0525), ("VU_Configuration", 0x0540)]

/-- FS lines 1185-1190: company card, generation 1 application. -/
def companyCardG1 : List (String × Nat) :=
  [("Application_Identification", 0x0501), ("Card_Certificate", 0xC100), ("CA_Certificate", 0xC108),
   ("Identification", 0x0520), ("Company_Activity_Data", 0x050D)]

/-- FS lines 1263-1270: company card, generation 2 application. -/
def companyCardG2 : List (String × Nat) :=
  [("Application_Identification", 0x0501), ("CardMA_Certificate", 0xC100), ("CA_Certificate", 0xC108),
   ("Link_Certificate", 0xC109), ("Identification", 0x0520), ("Company_Activity_Data", 0x050D),
   ("Application_Identification_V2", 0x0525), ("VU_Configuration", 0x0540)]

/-- Every file of a driver card. -/
def driverCard : List (String × Nat) := masterFile ++ driverCardG1 ++ driverCardG2

/-- Every file of a workshop card. -/
def workshopCard : List (String × Nat) := masterFile ++ workshopCardG1 ++ workshopCardG2

/-- Every file of a control card. -/
def controlCard : List (String × Nat) := masterFile ++ controlCardG1 ++ controlCardG2

/-- Every file of a company card. -/
def companyCard : List (String × Nat) := masterFile ++ companyCardG1 ++ companyCardG2

/-- The files of all generation 1 applications. -/
def filesG1 : List (String × Nat) := masterFile ++ driverCardG1 ++ workshopCardG1 ++ controlCardG1 ++ companyCardG1

/-- The files of all generation 2 applications. -/
def filesG2 : List (String × Nat) := masterFile ++ driverCardG2 ++ workshopCardG2 ++ controlCardG2 ++ companyCardG2

/-- The name a list gives to a file identifier. -/
def nameOfFid (L : List (String × Nat)) (fid : Nat) : Option String :=
  (L.find? (fun p => p.2 == fid)).map Prod.fst

/-- The file identifier of a block of a card download: its first two bytes. -/
def blockFid (r : Tlv) : Nat := r.fidHi.toNat * 256 + r.fidLo.toNat

/-- CD (chapter 12): the block of a file's contents, as opposed to that of its signature, has an even
appendix byte. -/
def isContents (r : Tlv) : Prop := r.appendix.toNat % 2 = 0

/-- Which value of the API's file enum is which file of the regulation. `Card_Download` has two identifiers
in the regulation and two values in the enum. -/
def fileName : EF → Option String
  | .icc => some "ICC"
  | .ic => some "IC"
  | .dir => some "DIR"
  | .atrInfo => some "ATR/INFO"
  | .extendedLength => some "Extended_Length"
  | .applicationIdentification => some "Application_Identification"
  | .eventsData => some "Events_Data"
  | .faultsData => some "Faults_Data"
  | .driverActivityData => some "Driver_Activity_Data"
  | .vehiclesUsed => some "Vehicles_Used"
  | .places => some "Places"
  | .currentUsage => some "Current_Usage"
  | .controlActivityData => some "Control_Activity_Data"
  | .cardDownloadWorkshop => some "Card_Download"
  | .calibration => some "Calibration"
  | .sensorInstallationData => some "Sensor_Installation_Data"
  | .controllerActivityData => some "Controller_Activity_Data"
  | .companyActivityData => some "Company_Activity_Data"
  | .cardDownloadDriver => some "Card_Download"
  | .identification => some "Identification"
  | .drivingLicenceInfo => some "Driving_Licence_Info"
  | .specificConditions => some "Specific_Conditions"
  | .vehicleUnitsUsed => some "VehicleUnits_Used"
  | .gnssPlaces => some "GNSS_Places"
  | .applicationIdentificationV2 => some "Application_Identification_V2"
  | .placesAuthentication => some "Places_Authentication"
  | .gnssPlacesAuthentication => some "GNSS_Places_Authentication"
  | .borderCrossings => some "Border_Crossings"
  | .loadUnloadOperations => some "Load_Unload_Operations"
  | .loadTypeEntries => some "Load_Type_Entries"
  | .calibrationAddData => some "Calibration_Add_Data"
  | .vuConfiguration => some "VU_Configuration"
  | .cardCertificate => some "Card_Certificate"
  | .cardMaCertificate => some "CardMA_Certificate"
  | .cardSignCertificate => some "CardSignCertificate"
  | .caCertificate => some "CA_Certificate"
  | .linkCertificate => some "Link_Certificate"
  | .unspecified | .egf | .vu => none

/-! ## Record layouts -/

/-- The elements of a data type in order, with their sizes in bytes. -/
abbrev Layout := List (String × Nat)

/-- The size of the data type. -/
def Layout.size (L : Layout) : Nat := (L.map Prod.snd).sum

/-- The bytes of the element called `name`. -/
def Layout.get : Layout → String → Bytes → Bytes
  | [], _, _ => []
  | (n, k) :: L, name, d => if n = name then d.take k else Layout.get L name (d.drop k)

/-- FS lines 30-36. -/
def cardIccIdentification : Layout :=
  [("clockStop", 1), ("cardExtendedSerialNumber", 8), ("cardApprovalNumber", 8), ("cardPersonaliserID", 1),
   ("embedderIcAssemblerId", 5), ("icIdentifier", 2)]

/-- FS lines 38-40. -/
def cardChipIdentification : Layout := [("icSerialNumber", 4), ("icManufacturingReferences", 4)]

/-- FS lines 97-104: DriverCardApplicationIdentification, generation 1. -/
def applicationIdentificationG1 : Layout :=
  [("typeOfTachographCardId", 1), ("cardStructureVersion", 2), ("noOfEventsPerType", 1),
   ("noOfFaultsPerType", 1), ("activityStructureLength", 2), ("noOfCardVehicleRecords", 2),
   ("noOfCardPlaceRecords", 1)]

/-- FS lines 280-290: DriverCardApplicationIdentification, generation 2. -/
def applicationIdentificationG2 : Layout :=
  [("typeOfTachographCardId", 1), ("cardStructureVersion", 2), ("noOfEventsPerType", 1),
   ("noOfFaultsPerType", 1), ("activityStructureLength", 2), ("noOfCardVehicleRecords", 2),
   ("noOfCardPlaceRecords", 2), ("noOfGNSSADRecords", 2), ("noOfSpecificConditionRecords", 2),
   ("noOfCardVehicleUnitRecords", 2)]

/-- DD lines 1552-1570 and FS lines 424-429: DriverCardApplicationIdentificationV2. -/
def applicationIdentificationV2 : Layout :=
  [("lengthOfFollowingData", 2), ("noOfBorderCrossingRecords", 2), ("noOfLoadUnloadRecords", 2),
   ("noOfLoadTypeEntryRecords", 2), ("VuConfigurationLengthRange", 2)]

/-- FS lines 110-122: CardIdentification, then DriverCardHolderIdentification. -/
def identification : Layout :=
  [("cardIssuingMemberState", 1), ("cardNumber", 16), ("cardIssuingAuthorityName", 36), ("cardIssueDate", 4),
   ("cardValidityBegin", 4), ("cardExpiryDate", 4), ("holderSurname", 36), ("holderFirstNames", 36),
   ("cardHolderBirthDate", 4), ("cardHolderPreferredLanguage", 2)]

/-- FS lines 123-124. -/
def cardDownload : Layout := [("LastCardDownload", 4)]

/-- FS lines 126-129. -/
def drivingLicence : Layout :=
  [("drivingLicenceIssuingAuthority", 36), ("drivingLicenceIssuingNation", 1), ("drivingLicenceNumber", 16)]

/-- FS lines 133-139 (CardEventRecord) and 143-154 (CardFaultRecord, the same shape). -/
def eventRecord : Layout :=
  [("eventType", 1), ("eventBeginTime", 4), ("eventEndTime", 4), ("vehicleRegistrationNation", 1),
   ("vehicleRegistrationNumber", 14)]

/-- FS lines 165-173: CardVehicleRecord, generation 1. -/
def vehicleRecordG1 : Layout :=
  [("vehicleOdometerBegin", 3), ("vehicleOdometerEnd", 3), ("vehicleFirstUse", 4), ("vehicleLastUse", 4),
   ("vehicleRegistration", 15), ("vuDataBlockCounter", 2)]

/-- FS lines 352-361: CardVehicleRecord, generation 2. -/
def vehicleRecordG2 : Layout := vehicleRecordG1 ++ [("vehicleIdentificationNumber", 17)]

/-- FS lines 178-183: PlaceRecord, generation 1. -/
def placeRecordG1 : Layout :=
  [("entryTime", 4), ("entryTypeDailyWorkPeriod", 1), ("dailyWorkPeriodCountry", 1),
   ("dailyWorkPeriodRegion", 1), ("vehicleOdometerValue", 3)]

/-- FS lines 372-375: GNSSPlaceRecord. -/
def gnssPlaceRecord : Layout := [("timeStamp", 4), ("gnssAccuracy", 1), ("latitude", 3), ("longitude", 3)]

/-- FS lines 366-375: PlaceRecord, generation 2. -/
def placeRecordG2 : Layout := placeRecordG1 ++ [("entryGNSSPlaceRecord", 11)]

/-- FS lines 185-189: CardCurrentUse. -/
def currentUse : Layout := [("sessionOpenTime", 4), ("sessionOpenVehicle", 15)]

/-- FS lines 191-202: CardControlActivityDataRecord. -/
def controlActivity : Layout :=
  [("controlType", 1), ("controlTime", 4), ("controlCardNumber", 18), ("controlVehicleRegistration", 15),
   ("controlDownloadPeriodBegin", 4), ("controlDownloadPeriodEnd", 4)]

/-- DD FullCardNumber: cardType, cardIssuingMemberState, cardNumber (FS lines 194-197). -/
def fullCardNumber : Layout := [("cardType", 1), ("cardIssuingMemberState", 1), ("cardNumber", 16)]

/-- FS lines 204-206: SpecificConditionRecord. -/
def specificConditionRecord : Layout := [("entryTime", 4), ("specificConditionType", 1)]

/-- FS lines 406-410: CardVehicleUnitRecord. -/
def vehicleUnitRecord : Layout :=
  [("timeStamp", 4), ("manufacturerCode", 1), ("deviceID", 1), ("vuSoftwareVersion", 4)]

/-- FS lines 411-423: GNSSAccumulatedDrivingRecord (6048 bytes for 336 records). -/
def gnssAccumulatedDriving : Layout := [("timeStamp", 4), ("gnssPlaceRecord", 11), ("vehicleOdometerValue", 3)]

/-- A file that is a pointer to its newest record, followed by records. -/
structure CyclicFile where
  pointer : Nat
  record : Layout

/-- FS lines 161-173: EF Vehicles_Used, generation 1. -/
def vehiclesUsedG1 : CyclicFile := ⟨2, vehicleRecordG1⟩

/-- FS lines 348-361: EF Vehicles_Used, generation 2. -/
def vehiclesUsedG2 : CyclicFile := ⟨2, vehicleRecordG2⟩

/-- FS lines 174-183: EF Places, generation 1. -/
def placesG1 : CyclicFile := ⟨1, placeRecordG1⟩

/-- FS lines 362-375: EF Places, generation 2. -/
def placesG2 : CyclicFile := ⟨2, placeRecordG2⟩

/-- FS lines 203-206: EF Specific_Conditions, generation 1. -/
def specificConditionsG1 : CyclicFile := ⟨0, specificConditionRecord⟩

/-- FS lines 395-400: EF Specific_Conditions, generation 2. -/
def specificConditionsG2 : CyclicFile := ⟨2, specificConditionRecord⟩

/-- FS lines 402-410: EF VehicleUnits_Used. -/
def vehicleUnitsUsed : CyclicFile := ⟨2, vehicleUnitRecord⟩

/-- FS lines 411-423: EF GNSS_Places. -/
def gnssPlaces : CyclicFile := ⟨2, gnssAccumulatedDriving⟩

/-- FS lines 130-154: EF Events_Data and Faults_Data. -/
def eventsData : CyclicFile := ⟨0, eventRecord⟩

/-- The pointer of a file. -/
def CyclicFile.newest (F : CyclicFile) (d : Bytes) : Nat := beNat (d.take F.pointer)

/-- The records of a file, cut off one by one; bytes after the last whole record are left out. -/
def CyclicFile.recordsOf (F : CyclicFile) (d : Bytes) : List Bytes :=
  (List.range ((d.length - F.pointer) / F.record.size)).map
    (fun i => ((d.drop F.pointer).drop (i * F.record.size)).take F.record.size)

end Tacho.Spec.Regulation
