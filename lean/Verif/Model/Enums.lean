import Verif.Model.Basic
/-!
# Protocol enums: internal/dd/enum.go and the annotations in proto/.../dd/v1

The tables are transcribed from the `.proto` files by a script: enum number and
`protocol_enum_value` annotation (for `Encoding`: the `code_page` annotation), in declaration order.
-/

namespace Tacho

/-- An enum descriptor: numbers in declaration order with their protocol value annotation. Enum
values are `int32` numbers (protobuf enums are open), here `Int`. -/
abbrev EnumTable := List (Int × Option Nat)

/-- `UnmarshalEnum`, internal/dd/enum.go:19-40: first value whose annotation equals the byte. -/
def unmarshalEnum (t : EnumTable) (b : UInt8) : Res Int :=
  match t.find? (fun p => p.2 == some b.toNat) with
  | some p => .ok p.1
  | none => .err "no enum value with protocol_enum_value"

/-- `MarshalEnum`, internal/dd/enum.go:49-66: annotation of the value with this number. -/
def marshalEnum (t : EnumTable) (v : Int) : Res UInt8 :=
  match t.find? (fun p => p.1 == v) with
  | some (_, some p) => .ok (UInt8.ofNat p)
  | _ => .err "enum value has no protocol_enum_value"

/-- `UNSPECIFIED` is number 0 in every enum. -/
def enumUnspecified : Int := 0
/-- `UNRECOGNIZED` is number 1 in every enum that has it. -/
def enumUnrecognized : Int := 1

/-- `CalibrationPurpose`, proto/wayplatform/connect/tachograph/dd/v1/calibration_purpose.proto:9. -/
def calibrationPurposeTable : EnumTable :=
  [(0, none), (1, none), (2, some 0), (3, some 1), (4, some 2), (5, some 3), (6, some 4), 
   (7, some 5), (8, some 6)]

/-- `CardSlotNumber`, proto/wayplatform/connect/tachograph/dd/v1/card_slot_number.proto:9. -/
def cardSlotNumberTable : EnumTable :=
  [(0, none), (1, none), (2, some 0), (3, some 1)]

/-- `ClockStopMode`, proto/wayplatform/connect/tachograph/dd/v1/clock_stop_mode.proto:21. -/
def clockStopModeTable : EnumTable :=
  [(0, none), (1, none), (2, some 0), (3, some 1), (4, some 2), (5, some 3), (6, some 4), 
   (7, some 5)]

/-- `CompanyActivityType`, proto/wayplatform/connect/tachograph/dd/v1/company_activity_type.proto:9. -/
def companyActivityTypeTable : EnumTable :=
  [(0, none), (1, none), (2, some 1), (3, some 2), (4, some 3), (5, some 4)]

/-- `DriverActivityValue`, proto/wayplatform/connect/tachograph/dd/v1/driver_activity_value.proto:9. -/
def driverActivityValueTable : EnumTable :=
  [(0, none), (1, none), (2, some 0), (3, some 1), (4, some 2), (5, some 3)]

/-- `DrivingStatus`, proto/wayplatform/connect/tachograph/dd/v1/driving_status.proto:10. -/
def drivingStatusTable : EnumTable :=
  [(0, none), (1, none), (2, some 0), (3, some 1)]

/-- `Encoding`, proto/wayplatform/connect/tachograph/dd/v1/encoding.proto:21. -/
def encodingTable : EnumTable :=
  [(0, none), (1, none), (2, some 0), (3, some 255), (4, some 1), (5, some 2), (6, some 3), 
   (7, some 5), (8, some 7), (9, some 9), (10, some 13), (11, some 15), (12, some 16), 
   (13, some 80), (14, some 85)]

/-- `Encoding_ENCODING_DEFAULT`. -/
def encoding_encodingDefault : Int := 2
/-- `Encoding_ISO_8859_1`. -/
def encoding_iso88591 : Int := 4

/-- `EntryTypeDailyWorkPeriod`, proto/wayplatform/connect/tachograph/dd/v1/entry_type_daily_work_period.proto:27. -/
def entryTypeDailyWorkPeriodTable : EnumTable :=
  [(0, none), (1, none), (2, some 0), (3, some 1), (4, some 2), (5, some 3), (6, some 4), 
   (7, some 5)]

/-- `EquipmentType`, proto/wayplatform/connect/tachograph/dd/v1/equipment_type.proto:9. -/
def equipmentTypeTable : EnumTable :=
  [(0, none), (1, none), (2, some 0), (3, some 1), (4, some 2), (5, some 3), (6, some 4), 
   (7, some 5), (8, some 6), (9, some 7), (10, some 8), (11, some 9), (12, some 10), 
   (13, some 11), (14, some 12), (15, some 13), (16, some 14), (17, some 15), (18, some 16), 
   (19, some 17), (20, some 18), (21, some 19)]

/-- `EquipmentType_DRIVER_CARD`. -/
def equipmentType_driverCard : Int := 3
/-- `EquipmentType_WORKSHOP_CARD`. -/
def equipmentType_workshopCard : Int := 4
/-- `EquipmentType_COMPANY_CARD`. -/
def equipmentType_companyCard : Int := 6

/-- `EventFaultRecordPurpose`, proto/wayplatform/connect/tachograph/dd/v1/event_fault_record_purpose.proto:9. -/
def eventFaultRecordPurposeTable : EnumTable :=
  [(0, none), (1, none), (2, some 0), (3, some 1), (4, some 2), (5, some 3), (6, some 4), 
   (7, some 5), (8, some 6), (9, some 7)]

/-- `EventFaultType`, proto/wayplatform/connect/tachograph/dd/v1/event_fault_type.proto:9. -/
def eventFaultTypeTable : EnumTable :=
  [(0, none), (1, none), (2, some 0), (3, some 1), (4, some 2), (5, some 3), (6, some 4), 
   (7, some 5), (8, some 6), (9, some 7), (10, some 8), (11, some 9), (12, some 10), 
   (13, some 11), (14, some 12), (15, some 13), (16, some 14), (17, some 15), (18, some 16), 
   (19, some 17), (20, some 18), (21, some 19), (22, some 20), (23, some 21), (24, some 22), 
   (25, some 23), (26, some 24), (27, some 25), (28, some 26), (29, some 27), (30, some 28), 
   (31, some 32), (32, some 33), (33, some 34), (34, some 35), (35, some 36), (36, some 37), 
   (37, some 48), (38, some 49), (39, some 50), (40, some 51), (41, some 52), (42, some 53), 
   (43, some 54), (44, some 55), (45, some 56), (46, some 57), (47, some 58), (48, some 64)]

/-- `Generation`, proto/wayplatform/connect/tachograph/dd/v1/generation.proto:23. -/
def generationTable : EnumTable :=
  [(0, none), (1, some 1), (2, some 2)]

/-- `LoadType`, proto/wayplatform/connect/tachograph/dd/v1/load_type.proto:20. -/
def loadTypeTable : EnumTable :=
  [(0, none), (1, none), (2, some 0), (3, some 1), (4, some 2)]

/-- `NationNumeric`, proto/wayplatform/connect/tachograph/dd/v1/nation_numeric.proto:12. -/
def nationNumericTable : EnumTable :=
  [(0, none), (1, none), (2, some 0), (3, some 255), (4, some 1), (5, some 2), (6, some 3), 
   (7, some 4), (8, some 5), (9, some 6), (10, some 7), (11, some 8), (12, some 9), 
   (13, some 10), (14, some 11), (15, some 12), (16, some 13), (17, some 14), (18, some 15), 
   (19, some 16), (20, some 17), (21, some 18), (22, some 19), (23, some 20), (24, some 21), 
   (25, some 22), (26, some 23), (27, some 24), (28, some 25), (29, some 26), (30, some 27), 
   (31, some 28), (32, some 29), (33, some 30), (34, some 31), (35, some 32), (36, some 33), 
   (37, some 34), (38, some 35), (39, some 36), (40, some 37), (41, some 38), (42, some 39), 
   (43, some 40), (44, some 41), (45, some 42), (46, some 43), (47, some 44), (48, some 45), 
   (49, some 46), (50, some 47), (51, some 48), (52, some 49), (53, some 50), (54, some 53), 
   (55, some 54), (56, some 56), (57, some 253), (58, some 254)]

/-- `NationNumeric_FINLAND`. -/
def nationNumeric_finland : Int := 21

/-- `OperationType`, proto/wayplatform/connect/tachograph/dd/v1/operation_type.proto:16. -/
def operationTypeTable : EnumTable :=
  [(0, none), (1, none), (2, some 1), (3, some 2), (4, some 3)]

/-- `PositionAuthenticationStatus`, proto/wayplatform/connect/tachograph/dd/v1/position_authentication_status.proto:19. -/
def positionAuthenticationStatusTable : EnumTable :=
  [(0, none), (1, none), (2, some 0), (3, some 1)]

/-- `SlotCardType`, proto/wayplatform/connect/tachograph/dd/v1/slot_card_type.proto:19. -/
def slotCardTypeTable : EnumTable :=
  [(0, none), (1, none), (2, some 0), (3, some 1), (4, some 2), (5, some 3), (6, some 4)]

/-- `SpecificConditionType`, proto/wayplatform/connect/tachograph/dd/v1/specific_condition_type.proto:34. -/
def specificConditionTypeTable : EnumTable :=
  [(0, none), (1, none), (2, some 0), (3, some 1), (4, some 2), (5, some 3), (6, some 4)]

/-- All enum tables of the data dictionary. -/
def allEnumTables : List EnumTable :=
  [calibrationPurposeTable,
   cardSlotNumberTable,
   clockStopModeTable,
   companyActivityTypeTable,
   driverActivityValueTable,
   drivingStatusTable,
   encodingTable,
   entryTypeDailyWorkPeriodTable,
   equipmentTypeTable,
   eventFaultRecordPurposeTable,
   eventFaultTypeTable,
   generationTable,
   loadTypeTable,
   nationNumericTable,
   operationTypeTable,
   positionAuthenticationStatusTable,
   slotCardTypeTable,
   specificConditionTypeTable]

end Tacho
