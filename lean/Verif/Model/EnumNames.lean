import Verif.Model.Enums
/-!
# The names of the enum values

Transcribed from the `.proto` files by a script: the number and the name of every value of the enums
of the data dictionary, in declaration order. These are the names a caller of the API sees.
-/

namespace Tacho

/-- Number and name of each value of an enum. -/
abbrev EnumNames := List (Int × String)

/-- `CalibrationPurpose`, proto/.../dd/v1/calibration_purpose.proto:9-19. -/
def calibrationPurposeNames : EnumNames :=
  [(0, "CALIBRATION_PURPOSE_UNSPECIFIED"), (1, "CALIBRATION_PURPOSE_UNRECOGNIZED"),
   (2, "CALIBRATION_PURPOSE_RESERVED"), (3, "ACTIVATION"), (4, "FIRST_INSTALLATION"),
   (5, "INSTALLATION"), (6, "PERIODIC_INSPECTION"), (7, "VRN_ENTRY_BY_COMPANY"),
   (8, "TIME_ADJUSTMENT")]

/-- `CardSlotNumber`, proto/.../dd/v1/card_slot_number.proto:9-14. -/
def cardSlotNumberNames : EnumNames :=
  [(0, "CARD_SLOT_NUMBER_UNSPECIFIED"), (1, "CARD_SLOT_NUMBER_UNRECOGNIZED"), (2, "DRIVER_SLOT"),
   (3, "CO_DRIVER_SLOT")]

/-- `ClockStopMode`, proto/.../dd/v1/clock_stop_mode.proto:21-42. -/
def clockStopModeNames : EnumNames :=
  [(0, "CLOCK_STOP_MODE_UNSPECIFIED"), (1, "CLOCK_STOP_MODE_UNRECOGNIZED"), (2, "NOT_ALLOWED"),
   (3, "ALLOWED_NO_PREFERENCE"), (4, "ALLOWED_ONLY_HIGH_LEVEL"),
   (5, "ALLOWED_HIGH_LEVEL_PREFERRED"), (6, "ALLOWED_ONLY_LOW_LEVEL"),
   (7, "ALLOWED_LOW_LEVEL_PREFERRED")]

/-- `CompanyActivityType`, proto/.../dd/v1/company_activity_type.proto:9-16. -/
def companyActivityTypeNames : EnumNames :=
  [(0, "COMPANY_ACTIVITY_TYPE_UNSPECIFIED"), (1, "COMPANY_ACTIVITY_TYPE_UNRECOGNIZED"),
   (2, "CARD_DOWNLOADING"), (3, "VU_DOWNLOADING"), (4, "VU_LOCK_IN"), (5, "VU_LOCK_OUT")]

/-- `DriverActivityValue`, proto/.../dd/v1/driver_activity_value.proto:9-16. -/
def driverActivityValueNames : EnumNames :=
  [(0, "DRIVER_ACTIVITY_UNSPECIFIED"), (1, "DRIVER_ACTIVITY_UNRECOGNIZED"), (2, "BREAK_REST"),
   (3, "AVAILABILITY"), (4, "WORK"), (5, "DRIVING")]

/-- `DrivingStatus`, proto/.../dd/v1/driving_status.proto:10-15. -/
def drivingStatusNames : EnumNames :=
  [(0, "DRIVING_STATUS_UNSPECIFIED"), (1, "DRIVING_STATUS_UNRECOGNIZED"), (2, "SINGLE"),
   (3, "CREW")]

/-- `Encoding`, proto/.../dd/v1/encoding.proto:21-66. -/
def encodingNames : EnumNames :=
  [(0, "ENCODING_UNSPECIFIED"), (1, "ENCODING_UNRECOGNIZED"), (2, "ENCODING_DEFAULT"),
   (3, "ENCODING_EMPTY"), (4, "ISO_8859_1"), (5, "ISO_8859_2"), (6, "ISO_8859_3"),
   (7, "ISO_8859_5"), (8, "ISO_8859_7"), (9, "ISO_8859_9"), (10, "ISO_8859_13"),
   (11, "ISO_8859_15"), (12, "ISO_8859_16"), (13, "KOI8_R"), (14, "KOI8_U")]

/-- `EntryTypeDailyWorkPeriod`, proto/.../dd/v1/entry_type_daily_work_period.proto:27-36. -/
def entryTypeDailyWorkPeriodNames : EnumNames :=
  [(0, "ENTRY_TYPE_DAILY_WORK_PERIOD_UNSPECIFIED"),
   (1, "ENTRY_TYPE_DAILY_WORK_PERIOD_UNRECOGNIZED"), (2, "BEGIN"), (3, "END"), (4, "BEGIN_GNSS"),
   (5, "END_GNSS"), (6, "BEGIN_ITS"), (7, "END_ITS")]

/-- `EquipmentType`, proto/.../dd/v1/equipment_type.proto:9-32. -/
def equipmentTypeNames : EnumNames :=
  [(0, "EQUIPMENT_TYPE_UNSPECIFIED"), (1, "EQUIPMENT_TYPE_UNRECOGNIZED"),
   (2, "RESERVED_MEMBER_STATE_OR_EUROPE"), (3, "DRIVER_CARD"), (4, "WORKSHOP_CARD"),
   (5, "CONTROL_CARD"), (6, "COMPANY_CARD"), (7, "MANUFACTURING_CARD"), (8, "VEHICLE_UNIT"),
   (9, "MOTION_SENSOR"), (10, "GNSS_FACILITY"), (11, "REMOTE_COMMUNICATION_MODULE"),
   (12, "ITS_INTERFACE_MODULE"), (13, "PLAQUE"), (14, "M1_N1_ADAPTER"), (15, "EUROPEAN_ROOT_CA"),
   (16, "MEMBER_STATE_CA"), (17, "EXTERNAL_GNSS_CONNECTION"), (18, "UNUSED"),
   (19, "DRIVER_CARD_SIGN"), (20, "WORKSHOP_CARD_SIGN"), (21, "VEHICLE_UNIT_SIGN")]

/-- `EventFaultRecordPurpose`, proto/.../dd/v1/event_fault_record_purpose.proto:9-20. -/
def eventFaultRecordPurposeNames : EnumNames :=
  [(0, "EVENT_FAULT_RECORD_PURPOSE_UNSPECIFIED"), (1, "EVENT_FAULT_RECORD_PURPOSE_UNRECOGNIZED"),
   (2, "TEN_MOST_RECENT"), (3, "LONGEST_IN_LAST_10_DAYS"), (4, "FIVE_LONGEST_IN_LAST_365_DAYS"),
   (5, "LAST_IN_LAST_10_DAYS"), (6, "MOST_SERIOUS_IN_LAST_10_DAYS"),
   (7, "FIVE_MOST_SERIOUS_IN_LAST_365_DAYS"), (8, "FIRST_AFTER_LAST_CALIBRATION"),
   (9, "ACTIVE_OR_ONGOING")]

/-- `EventFaultType`, proto/.../dd/v1/event_fault_type.proto:9-69. -/
def eventFaultTypeNames : EnumNames :=
  [(0, "EVENT_FAULT_TYPE_UNSPECIFIED"), (1, "EVENT_FAULT_TYPE_UNRECOGNIZED"),
   (2, "GENERAL_NO_FURTHER_DETAILS"), (3, "GENERAL_INSERTION_OF_NON_VALID_CARD"),
   (4, "GENERAL_CARD_CONFLICT"), (5, "GENERAL_TIME_OVERLAP"),
   (6, "GENERAL_DRIVING_WITHOUT_APPROPRIATE_CARD"), (7, "GENERAL_CARD_INSERTION_WHILE_DRIVING"),
   (8, "GENERAL_LAST_CARD_SESSION_NOT_CORRECTLY_CLOSED"), (9, "GENERAL_OVER_SPEEDING"),
   (10, "GENERAL_POWER_SUPPLY_INTERRUPTION"), (11, "GENERAL_MOTION_DATA_ERROR"),
   (12, "GENERAL_VEHICLE_MOTION_CONFLICT"), (13, "GENERAL_TIME_CONFLICT_GNSS_VS_VU"),
   (14, "GENERAL_COMM_ERROR_REMOTE_COMM_FACILITY"),
   (15, "GENERAL_ABSENCE_OF_POSITION_INFO_FROM_GNSS"),
   (16, "GENERAL_COMM_ERROR_EXTERNAL_GNSS_FACILITY"), (17, "GENERAL_GNSS_ANOMALY"),
   (18, "VU_SEC_NO_FURTHER_DETAILS"), (19, "VU_SEC_MOTION_SENSOR_AUTH_FAILURE"),
   (20, "VU_SEC_TACHOGRAPH_CARD_AUTH_FAILURE"),
   (21, "VU_SEC_UNAUTHORISED_CHANGE_OF_MOTION_SENSOR"),
   (22, "VU_SEC_CARD_DATA_INPUT_INTEGRITY_ERROR"), (23, "VU_SEC_STORED_USER_DATA_INTEGRITY_ERROR"),
   (24, "VU_SEC_INTERNAL_DATA_TRANSFER_ERROR"), (25, "VU_SEC_UNAUTHORISED_CASE_OPENING"),
   (26, "VU_SEC_HARDWARE_SABOTAGE"), (27, "VU_SEC_TAMPER_DETECTION_OF_GNSS"),
   (28, "VU_SEC_EXTERNAL_GNSS_FACILITY_AUTH_FAILURE"),
   (29, "VU_SEC_EXTERNAL_GNSS_FACILITY_CERT_EXPIRED"),
   (30, "VU_SEC_INCONSISTENCY_MOTION_VS_ACTIVITY"), (31, "SENSOR_SEC_NO_FURTHER_DETAILS"),
   (32, "SENSOR_SEC_AUTHENTICATION_FAILURE"), (33, "SENSOR_SEC_STORED_DATA_INTEGRITY_ERROR"),
   (34, "SENSOR_SEC_INTERNAL_DATA_TRANSFER_ERROR"), (35, "SENSOR_SEC_UNAUTHORISED_CASE_OPENING"),
   (36, "SENSOR_SEC_HARDWARE_SABOTAGE"), (37, "FAULT_REC_EQ_NO_FURTHER_DETAILS"),
   (38, "FAULT_REC_EQ_VU_INTERNAL_FAULT"), (39, "FAULT_REC_EQ_PRINTER_FAULT"),
   (40, "FAULT_REC_EQ_DISPLAY_FAULT"), (41, "FAULT_REC_EQ_DOWNLOADING_FAULT"),
   (42, "FAULT_REC_EQ_SENSOR_FAULT"), (43, "FAULT_REC_EQ_INTERNAL_GNSS_RECEIVER"),
   (44, "FAULT_REC_EQ_EXTERNAL_GNSS_FACILITY"), (45, "FAULT_REC_EQ_REMOTE_COMM_FACILITY"),
   (46, "FAULT_REC_EQ_ITS_INTERFACE"), (47, "FAULT_REC_EQ_INTERNAL_SENSOR_FAULT"),
   (48, "FAULT_CARD_NO_FURTHER_DETAILS")]

/-- `LoadType`, proto/.../dd/v1/load_type.proto:20-35. -/
def loadTypeNames : EnumNames :=
  [(0, "LOAD_TYPE_UNSPECIFIED"), (1, "LOAD_TYPE_UNRECOGNIZED"), (2, "NOT_DEFINED"), (3, "GOODS"),
   (4, "PASSENGERS")]

/-- `NationNumeric`, proto/.../dd/v1/nation_numeric.proto:12-75. -/
def nationNumericNames : EnumNames :=
  [(0, "NATION_NUMERIC_UNSPECIFIED"), (1, "NATION_NUMERIC_UNRECOGNIZED"),
   (2, "NATION_NUMERIC_DEFAULT"), (3, "NATION_NUMERIC_EMPTY"), (4, "AUSTRIA"), (5, "ALBANIA"),
   (6, "ANDORRA"), (7, "ARMENIA"), (8, "AZERBAIJAN"), (9, "BELGIUM"), (10, "BULGARIA"),
   (11, "BOSNIA_HERZEGOVINA"), (12, "BELARUS"), (13, "SWITZERLAND"), (14, "CYPRUS"),
   (15, "CZECH_REPUBLIC"), (16, "GERMANY"), (17, "DENMARK"), (18, "SPAIN"), (19, "ESTONIA"),
   (20, "FRANCE"), (21, "FINLAND"), (22, "LIECHTENSTEIN"), (23, "FAROE_ISLANDS"),
   (24, "UNITED_KINGDOM"), (25, "GEORGIA"), (26, "GREECE"), (27, "HUNGARY"), (28, "CROATIA"),
   (29, "ITALY"), (30, "IRELAND"), (31, "ICELAND"), (32, "KAZAKHSTAN"), (33, "LUXEMBOURG"),
   (34, "LITHUANIA"), (35, "LATVIA"), (36, "MALTA"), (37, "MONACO"), (38, "MOLDOVA"),
   (39, "NORTH_MACEDONIA"), (40, "NORWAY"), (41, "NETHERLANDS"), (42, "PORTUGAL"), (43, "POLAND"),
   (44, "ROMANIA"), (45, "SAN_MARINO"), (46, "RUSSIA"), (47, "SWEDEN"), (48, "SLOVAKIA"),
   (49, "SLOVENIA"), (50, "TURKMENISTAN"), (51, "TURKEY"), (52, "UKRAINE"), (53, "VATICAN_CITY"),
   (54, "SERBIA"), (55, "MONTENEGRO"), (56, "KYRGYZ_REPUBLIC"), (57, "EUROPEAN_COMMUNITY"),
   (58, "REST_OF_WORLD")]

/-- `OperationType`, proto/.../dd/v1/operation_type.proto:16-31. -/
def operationTypeNames : EnumNames :=
  [(0, "OPERATION_TYPE_UNSPECIFIED"), (1, "OPERATION_TYPE_UNRECOGNIZED"), (2, "LOAD_OPERATION"),
   (3, "UNLOAD_OPERATION"), (4, "SIMULTANEOUS_LOAD_UNLOAD_OPERATION")]

/-- `PositionAuthenticationStatus`, proto/.../dd/v1/position_authentication_status.proto:19-31. -/
def positionAuthenticationStatusNames : EnumNames :=
  [(0, "POSITION_AUTHENTICATION_STATUS_UNSPECIFIED"),
   (1, "POSITION_AUTHENTICATION_STATUS_UNRECOGNIZED"), (2, "NOT_AUTHENTICATED"),
   (3, "AUTHENTICATED")]

/-- `SlotCardType`, proto/.../dd/v1/slot_card_type.proto:19-45. -/
def slotCardTypeNames : EnumNames :=
  [(0, "SLOT_CARD_TYPE_UNSPECIFIED"), (1, "SLOT_CARD_TYPE_UNRECOGNIZED"), (2, "NO_CARD"),
   (3, "DRIVER_CARD_INSERTED"), (4, "WORKSHOP_CARD_INSERTED"), (5, "CONTROL_CARD_INSERTED"),
   (6, "COMPANY_CARD_INSERTED")]

/-- `SpecificConditionType`, proto/.../dd/v1/specific_condition_type.proto:34-42. -/
def specificConditionTypeNames : EnumNames :=
  [(0, "SPECIFIC_CONDITION_TYPE_UNSPECIFIED"), (1, "SPECIFIC_CONDITION_TYPE_UNRECOGNIZED"),
   (2, "RFU"), (3, "OUT_OF_SCOPE_BEGIN"), (4, "OUT_OF_SCOPE_END"),
   (5, "FERRY_TRAIN_CROSSING_BEGIN"), (6, "FERRY_TRAIN_CROSSING_END")]

/-- The `String()` method of a generated protobuf enum: the declared name of a declared number (others
print as decimal numbers, here `none`). -/
def enumName (names : EnumNames) (v : Int) : Option String := names.lookup v

end Tacho
