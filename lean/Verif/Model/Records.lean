import Verif.Model.Strings
/-!
# Composite records of internal/dd

Message-typed fields are `Option`: `none` is a nil pointer. Where the Go code calls a getter on a nil
message, the model uses the message of zero values.
-/

namespace Tacho

/-- `copy(canvas[off:off+n], b)`: overwrites the first `min n (len b)` bytes from `off`. The canvases
below are always long enough. -/
def paint (canvas : Bytes) (off n : Nat) (b : Bytes) : Bytes :=
  canvas.take off ++ b.take n ++ canvas.drop (off + min n b.length)

/-- The canvas of the Append functions that test `len(raw) > 0`: raw bytes when non-empty (they must
have the right length), else zeros. -/
def canvasNonEmpty (raw : Option Bytes) (n : Nat) : Res Bytes :=
  let r := raw.getD []
  if r.length > 0 then (if r.length ≠ n then .err "invalid raw_data length" else .ok r)
  else .ok (zeros n)

/-- The pattern `if v, err := UnmarshalEnum(b); err == nil { Set(v) } else { Set(UNRECOGNIZED);
SetUnrecognized(int32(b)) }`. -/
def enumOrUnrecognized (t : EnumTable) (b : UInt8) : Int × Option Int :=
  match unmarshalEnum t b with
  | .ok v => (v, none)
  | _ => (enumUnrecognized, some (b.toNat : Int))

/-- The reverse pattern: `byte(GetUnrecognized())` for UNRECOGNIZED, else `MarshalEnum`. -/
def enumByte (t : EnumTable) (v : Int) (unrec : Option Int) : Res UInt8 :=
  if v = enumUnrecognized then .ok (i2b (unrec.getD 0)) else marshalEnum t v

/-- The same with the error of `MarshalEnum` ignored, which leaves a zero byte. -/
def enumByteLax (t : EnumTable) (v : Int) (unrec : Option Int) : UInt8 :=
  if v = enumUnrecognized then i2b (unrec.getD 0)
  else match marshalEnum t v with
    | .ok b => b
    | _ => 0

/-- The pattern without an unrecognized field: unknown bytes become UNRECOGNIZED. -/
def enumOr1 (t : EnumTable) (b : UInt8) : Int :=
  match unmarshalEnum t b with
  | .ok v => v
  | _ => enumUnrecognized

section
variable [Charmap]

/-! ## VehicleRegistrationIdentification -/

/-- `VehicleRegistrationIdentification` message. -/
structure VehicleRegistration where
  nation : Int
  number : Option StringValue
  deriving Repr, DecidableEq

/-- `UnmarshalVehicleRegistration`, internal/dd/vehicle_registration.go:23-48. -/
def unmarshalVehicleRegistration (data : Bytes) : Res VehicleRegistration := do
  if data.length ≠ 15 then .err "invalid data length for VehicleRegistrationIdentification"
  let b0 ← at? data 0
  let nd ← sl? data 1 15
  let number ← unmarshalStringValue nd
  return { nation := enumOr1 nationNumericTable b0, number := some number }

/-- The default number, internal/dd/vehicle_registration.go:89-92. -/
def emptyVrn : StringValue := { encoding := encoding_encodingDefault, rawData := none, length := some 13, value := [] }

omit [Charmap] in
/-- `AppendVehicleRegistration`, internal/dd/vehicle_registration.go:64-95. -/
def appendVehicleRegistration (dst : Bytes) (v : Option VehicleRegistration) : Res Bytes :=
  match v with
  | none => .err "vehicleRegistration cannot be nil"
  | some v => do
    if v.nation = enumUnrecognized then .err "cannot marshal UNRECOGNIZED nation"
    let nationByte ← marshalEnum nationNumericTable v.nation
    appendStringValue (dst ++ [nationByte]) (some (v.number.getD emptyVrn))

/-! ## HolderName -/

/-- `HolderName` message. -/
structure HolderName where
  surname : Option StringValue
  firstNames : Option StringValue
  deriving Repr, DecidableEq

/-- `UnmarshalHolderName`, internal/dd/holder_name.go:28-57. -/
def unmarshalHolderName (data : Bytes) : Res HolderName := do
  if data.length ≠ 72 then .err "invalid data length for HolderName"
  let a ← sl? data 0 36
  let s ← unmarshalStringValue a
  let b ← sl? data 36 72
  let f ← unmarshalStringValue b
  return { surname := some s, firstNames := some f }

omit [Charmap] in
/-- `AppendHolderName`, internal/dd/holder_name.go:78-98. -/
def appendHolderName (dst : Bytes) (h : Option HolderName) : Res Bytes :=
  match h with
  | none => .err "holderName cannot be nil"
  | some h => do
    let dst ← appendStringValue dst h.surname
    appendStringValue dst h.firstNames

end

/-! ## DriverIdentification, OwnerIdentification, FullCardNumber -/

/-- `DriverIdentification` message. The two indices are only used by EF_Identification. -/
structure DriverIdentification where
  number : Option Ia5StringValue
  replacement : Option Ia5StringValue := none
  renewal : Option Ia5StringValue := none
  deriving Repr, DecidableEq

/-- `UnmarshalDriverIdentification`, internal/dd/driver_identification.go:21-40. -/
def unmarshalDriverIdentification (data : Bytes) : Res DriverIdentification := do
  if data.length ≠ 14 then .err "invalid data length for DriverIdentification"
  let a ← sl? data 0 14
  let n ← unmarshalIa5StringValue a
  return { number := some n }

/-- `AppendDriverIdentification`, internal/dd/driver_identification.go:54-61. -/
def appendDriverIdentification (dst : Bytes) (d : Option DriverIdentification) : Res Bytes :=
  match d with
  | none => .err "driverID cannot be nil"
  | some d => appendIa5StringValue dst d.number

/-- The bytes of `"DRIVER00000001"`. -/
def anonDriverNumber : Bytes :=
  [0x44, 0x52, 0x49, 0x56, 0x45, 0x52, 0x30, 0x30, 0x30, 0x30, 0x30, 0x30, 0x30, 0x31]

/-- `AnonymizeDriverIdentification`, internal/dd/driver_identification.go:66-77. -/
def anonymizeDriverIdentification (d : Option DriverIdentification) : Option DriverIdentification :=
  d.map (fun _ => { number := some { rawData := none, length := some 14, value := anonDriverNumber } })

/-- `OwnerIdentification` message. -/
structure OwnerIdentification where
  owner : Option Ia5StringValue
  consecutive : Option Ia5StringValue
  replacement : Option Ia5StringValue
  renewal : Option Ia5StringValue
  deriving Repr, DecidableEq

/-- `UnmarshalOwnerIdentification`, internal/dd/owner_identification.go:27-67. -/
def unmarshalOwnerIdentification (data : Bytes) : Res OwnerIdentification := do
  if data.length ≠ 16 then .err "invalid data length for OwnerIdentification"
  let a ← sl? data 0 13
  let o ← unmarshalIa5StringValue a
  let b ← sl? data 13 14
  let c ← unmarshalIa5StringValue b
  let b ← sl? data 14 15
  let r ← unmarshalIa5StringValue b
  let b ← sl? data 15 16
  let n ← unmarshalIa5StringValue b
  return { owner := some o, consecutive := some c, replacement := some r, renewal := some n }

/-- `AppendOwnerIdentification`, internal/dd/owner_identification.go:87-118. -/
def appendOwnerIdentification (dst : Bytes) (o : Option OwnerIdentification) : Res Bytes :=
  match o with
  | none => .err "ownerID cannot be nil"
  | some o => do
    let dst ← appendIa5StringValue dst o.owner
    let dst ← appendIa5StringValue dst o.consecutive
    let dst ← appendIa5StringValue dst o.replacement
    appendIa5StringValue dst o.renewal

/-- `FullCardNumber` message. The card number is a oneof of driver and owner identification. -/
structure FullCardNumber where
  cardType : Int
  issuingState : Int
  driver : Option DriverIdentification
  owner : Option OwnerIdentification
  deriving Repr, DecidableEq

/-- `UnmarshalFullCardNumber`, internal/dd/full_card_number.go:30-73. The issuing state is the byte
itself cast to the enum number (line 49). -/
def unmarshalFullCardNumber (data : Bytes) : Res FullCardNumber := do
  if data.length ≠ 18 then .err "invalid data length for FullCardNumber"
  let b0 ← at? data 0
  let cardType ← unmarshalEnum equipmentTypeTable b0
  let b1 ← at? data 1
  let num ← sl? data 2 18
  if cardType = equipmentType_driverCard then do
    let d ← sl? num 0 14
    let driver ← unmarshalDriverIdentification d
    return { cardType := cardType, issuingState := (b1.toNat : Int), driver := some driver, owner := none }
  else if cardType = equipmentType_workshopCard ∨ cardType = equipmentType_companyCard then do
    let owner ← unmarshalOwnerIdentification num
    return { cardType := cardType, issuingState := (b1.toNat : Int), driver := none, owner := some owner }
  else .err "unsupported card type"

/-- `AppendFullCardNumber`, internal/dd/full_card_number.go:96-143. -/
def appendFullCardNumber (dst : Bytes) (c : Option FullCardNumber) : Res Bytes :=
  match c with
  | none => .err "cardNumber cannot be nil"
  | some c => do
    let tb ← marshalEnum equipmentTypeTable c.cardType
    let dst := dst ++ [tb, i2b c.issuingState]
    if c.cardType = equipmentType_driverCard then
      match c.driver with
      | some d => do
        let dst ← appendDriverIdentification dst (some d)
        return dst ++ [0, 0]
      | none => return dst ++ zeros 16
    else if c.cardType = equipmentType_workshopCard ∨ c.cardType = equipmentType_companyCard then
      match c.owner with
      | some o => appendOwnerIdentification dst (some o)
      | none => return dst ++ zeros 16
    else return dst ++ zeros 16

/-- `AppendFullCardNumberAsString`, internal/dd/full_card_number.go:147-165. -/
def appendFullCardNumberAsString (dst : Bytes) (c : Option FullCardNumber) : Res Bytes :=
  match c with
  | none => .err "cardNumber cannot be nil"
  | some c =>
    if c.cardType = equipmentType_driverCard then
      match c.driver with
      | some d => appendIa5StringValue dst d.number
      | none => appendStringValue dst none
    else if c.cardType = equipmentType_workshopCard ∨ c.cardType = equipmentType_companyCard then
      match c.owner with
      | some o => appendIa5StringValue dst o.owner
      | none => appendStringValue dst none
    else appendStringValue dst none

/-- `FullCardNumberAndGeneration` message. -/
structure FullCardNumberAndGeneration where
  number : Option FullCardNumber
  generation : Int
  deriving Repr, DecidableEq

/-- `UnmarshalFullCardNumberAndGeneration`, internal/dd/full_card_number_and_generation.go:23-54. -/
def unmarshalFullCardNumberAndGeneration (data : Bytes) : Res FullCardNumberAndGeneration := do
  if data.length < 1 then .err "insufficient data for FullCardNumberAndGeneration"
  let g ← at? data (data.length - 1)
  let generation ← unmarshalEnum generationTable g
  let d ← sl? data 0 (data.length - 1)
  let number ← unmarshalFullCardNumber d
  return { number := some number, generation := generation }

/-- `AppendFullCardNumberAndGeneration`, internal/dd/full_card_number_and_generation.go:72-95. A nil
card number is simply left out. -/
def appendFullCardNumberAndGeneration (dst : Bytes) (c : Option FullCardNumberAndGeneration) : Res Bytes :=
  match c with
  | none => .err "fullCardNumberAndGeneration cannot be nil"
  | some c => do
    let dst ← (match c.number with
      | some n => appendFullCardNumber dst (some n)
      | none => .ok dst)
    let g ← marshalEnum generationTable c.generation
    return dst ++ [g]

/-! ## ExtendedSerialNumber -/

/-- `ExtendedSerialNumber` message. -/
structure ExtendedSerialNumber where
  serialNumber : Int
  monthYear : Option MonthYear
  type : Int
  manufacturerCode : Int
  deriving Repr, DecidableEq

/-- `UnmarshalExtendedSerialNumber`, internal/dd/extended_serial_number.go:30-64. -/
def unmarshalExtendedSerialNumber (data : Bytes) : Res ExtendedSerialNumber := do
  if data.length ≠ 8 then .err "invalid data length for ExtendedSerialNumber"
  let s ← sl? data 0 4
  let m ← sl? data 4 6
  let my ← unmarshalMonthYear m
  let t ← at? data 6
  let c ← at? data 7
  return {
    serialNumber := (beNat s : Int)
    monthYear := some my
    type := enumOr1 equipmentTypeTable t
    manufacturerCode := (c.toNat : Int) }

/-- `AppendExtendedSerialNumber`, internal/dd/extended_serial_number.go:86-113. -/
def appendExtendedSerialNumber (dst : Bytes) (e : Option ExtendedSerialNumber) : Res Bytes :=
  match e with
  | none => .err "extendedSerialNumber cannot be nil"
  | some e => do
    let dst := dst ++ beBytes 4 (low 32 e.serialNumber)
    let dst ← appendMonthYear dst (e.monthYear.getD default)
    let t ← marshalEnum equipmentTypeTable e.type
    return dst ++ [t, i2b e.manufacturerCode]

/-- `AppendExtendedSerialNumberAsString` with `maxLen = 8`, its only use,
internal/dd/extended_serial_number.go:117-166. The zero checks there skip writing a zero. -/
def appendExtendedSerialNumberAsString (dst : Bytes) (e : Option ExtendedSerialNumber) : Res Bytes :=
  match e with
  | none => .err "extendedSerialNumber cannot be nil"
  | some e => do
    let sn := if e.serialNumber ≠ 0 then beBytes 4 (low 32 e.serialNumber) else zeros 4
    let my ← appendMonthYear [] (e.monthYear.getD default)
    let my := if my.length ≥ 2 then my.take 2 else zeros 2
    let t ← (if e.type ≠ enumUnspecified then marshalEnum equipmentTypeTable e.type else .ok 0)
    let c := if e.manufacturerCode ≠ 0 then i2b e.manufacturerCode else 0
    return dst ++ (sn ++ my ++ [t, c])

/-! ## GNSS records -/

/-- `GNSSPlaceRecord` message. -/
structure GNSSPlaceRecord where
  timestamp : Option Timestamp
  accuracy : Int
  geo : Option GeoCoordinates
  deriving Repr, DecidableEq

/-- `UnmarshalGNSSPlaceRecord`, internal/dd/gnss_place_record.go:28-61. -/
def unmarshalGNSSPlaceRecord (data : Bytes) : Res GNSSPlaceRecord := do
  if data.length ≠ 11 then .err "invalid data length for GNSSPlaceRecord"
  let t ← sl? data 0 4
  let ts ← unmarshalTimeReal t
  let a ← at? data 4
  let g ← sl? data 5 11
  let geo ← unmarshalGeoCoordinates g
  return { timestamp := ts, accuracy := (a.toNat : Int), geo := some geo }

/-- `AppendGNSSPlaceRecord`, internal/dd/gnss_place_record.go:82-109. -/
def appendGNSSPlaceRecord (dst : Bytes) (r : Option GNSSPlaceRecord) : Res Bytes :=
  match r with
  | none => .ok (dst ++ zeros 11)
  | some r => do
    let dst ← appendTimeReal dst r.timestamp
    if r.accuracy < 0 ∨ r.accuracy > 255 then .err "invalid GNSS accuracy"
    appendGeoCoordinates (dst ++ [i2b r.accuracy]) (r.geo.getD default)

/-- `AnonymizeGNSSPlaceRecord`, internal/dd/gnss_place_record.go:118-140. -/
def anonymizeGNSSPlaceRecord (r : Option GNSSPlaceRecord) : Option GNSSPlaceRecord :=
  r.map (fun r => { timestamp := r.timestamp, accuracy := r.accuracy, geo := some ⟨60100, 24560⟩ })

/-- `GNSSPlaceAuthRecord` message. -/
structure GNSSPlaceAuthRecord where
  timestamp : Option Timestamp
  accuracy : Int
  geo : Option GeoCoordinates
  authStatus : Int
  unrecognizedAuthStatus : Option Int
  deriving Repr, DecidableEq

/-- `UnmarshalGNSSPlaceAuthRecord`, internal/dd/gnss_place_auth_record.go:28-69. -/
def unmarshalGNSSPlaceAuthRecord (data : Bytes) : Res GNSSPlaceAuthRecord := do
  if data.length ≠ 12 then .err "invalid data length for GNSSPlaceAuthRecord"
  let t ← sl? data 0 4
  let ts ← unmarshalTimeReal t
  let a ← at? data 4
  let g ← sl? data 5 11
  let geo ← unmarshalGeoCoordinates g
  let s ← at? data 11
  return {
    timestamp := ts
    accuracy := (a.toNat : Int)
    geo := some geo
    authStatus := (enumOrUnrecognized positionAuthenticationStatusTable s).1
    unrecognizedAuthStatus := (enumOrUnrecognized positionAuthenticationStatusTable s).2 }

/-- `AppendGNSSPlaceAuthRecord`, internal/dd/gnss_place_auth_record.go:90-132. A nil time is four
zero bytes, which is also what `AppendTimeReal` writes for nil. -/
def appendGNSSPlaceAuthRecord (dst : Bytes) (r : Option GNSSPlaceAuthRecord) : Res Bytes :=
  match r with
  | none => .ok (dst ++ zeros 12)
  | some r => do
    let dst ← appendTimeReal dst r.timestamp
    let dst ← appendGeoCoordinates (dst ++ [i2b r.accuracy]) (r.geo.getD default)
    let s ← enumByte positionAuthenticationStatusTable r.authStatus r.unrecognizedAuthStatus
    return dst ++ [s]

/-! ## PlaceRecord -/

/-- `PlaceRecord` message. -/
structure PlaceRecord where
  rawData : Option Bytes
  entryTime : Option Timestamp
  entryType : Int
  unrecognizedEntryType : Option Int
  country : Int
  unrecognizedCountry : Option Int
  region : Bytes
  odometerKm : Int
  /-- set to false where a record of a card file cannot be parsed, and nowhere to true -/
  valid : Bool := false
  deriving Repr, DecidableEq

/-- `UnmarshalPlaceRecord`, internal/dd/place_record.go:24-76. -/
def unmarshalPlaceRecord (data : Bytes) : Res PlaceRecord := do
  if data.length ≠ 10 then .err "invalid data length for Gen1 PlaceRecord"
  let t ← sl? data 0 4
  let ts ← unmarshalTimeReal t
  let e ← at? data 4
  let c ← at? data 5
  let r ← at? data 6
  let o ← sl? data 7 10
  return {
    rawData := some data
    entryTime := ts
    entryType := (enumOrUnrecognized entryTypeDailyWorkPeriodTable e).1
    unrecognizedEntryType := (enumOrUnrecognized entryTypeDailyWorkPeriodTable e).2
    country := (enumOrUnrecognized nationNumericTable c).1
    unrecognizedCountry := (enumOrUnrecognized nationNumericTable c).2
    region := [r]
    odometerKm := (beNat o : Int) }

/-- The first ten bytes of both place records, internal/dd/place_record.go:91-126 and
place_record_g2.go:99-134. -/
def paintPlace (canvas : Bytes) (r : PlaceRecord) : Res Bytes := do
  let t ← appendTimeReal [] r.entryTime
  let canvas := paint canvas 0 4 t
  let canvas := paint canvas 4 1 [enumByteLax entryTypeDailyWorkPeriodTable r.entryType r.unrecognizedEntryType]
  let canvas := paint canvas 5 1 [enumByteLax nationNumericTable r.country r.unrecognizedCountry]
  let canvas := paint canvas 6 1 (r.region.take 1)
  return paint canvas 7 3 (appendOdometer [] (low 32 r.odometerKm))

/-- `AppendPlaceRecord`, internal/dd/place_record.go:79-129. -/
def appendPlaceRecord (dst : Bytes) (r : PlaceRecord) : Res Bytes := do
  let canvas ← canvasNonEmpty r.rawData 10
  let canvas ← paintPlace canvas r
  return dst ++ canvas

/-- `AnonymizePlaceRecord`, internal/dd/place_record.go:148-184; `anonymizeTimestamp` (line 136) is
the identity. -/
def anonymizePlaceRecord (r : PlaceRecord) : PlaceRecord :=
  let result : PlaceRecord := {
    rawData := none
    entryTime := r.entryTime
    entryType := r.entryType
    unrecognizedEntryType := r.unrecognizedEntryType
    country := nationNumeric_finland
    unrecognizedCountry := none
    region := [1]
    odometerKm := r.odometerKm.tdiv 100 * 100 }
  match appendPlaceRecord [] result with
  | .ok b => { result with rawData := some b }
  | _ => result

/-- `PlaceRecordG2` message: the fields of `PlaceRecord` and a GNSS record. -/
structure PlaceRecordG2 where
  base : PlaceRecord
  gnss : Option GNSSPlaceRecord
  deriving Repr, DecidableEq

/-- `UnmarshalPlaceRecordG2`, internal/dd/place_record_g2.go:24-84. -/
def unmarshalPlaceRecordG2 (data : Bytes) : Res PlaceRecordG2 := do
  if data.length ≠ 21 then .err "invalid data length for Gen2 PlaceRecord"
  let t ← sl? data 0 4
  let ts ← unmarshalTimeReal t
  let e ← at? data 4
  let c ← at? data 5
  let r ← at? data 6
  let o ← sl? data 7 10
  let gd ← sl? data 10 21
  let g ← unmarshalGNSSPlaceRecord gd
  return {
    base := {
      rawData := some data
      entryTime := ts
      entryType := (enumOrUnrecognized entryTypeDailyWorkPeriodTable e).1
      unrecognizedEntryType := (enumOrUnrecognized entryTypeDailyWorkPeriodTable e).2
      country := (enumOrUnrecognized nationNumericTable c).1
      unrecognizedCountry := (enumOrUnrecognized nationNumericTable c).2
      region := [r]
      odometerKm := (beNat o : Int) }
    gnss := some g }

/-- `AppendPlaceRecordG2`, internal/dd/place_record_g2.go:87-144. -/
def appendPlaceRecordG2 (dst : Bytes) (r : PlaceRecordG2) : Res Bytes := do
  let canvas ← canvasNonEmpty r.base.rawData 21
  let canvas ← paintPlace canvas r.base
  let g ← appendGNSSPlaceRecord [] r.gnss
  return dst ++ paint canvas 10 11 g

/-- `AnonymizePlaceRecordG2`, internal/dd/place_record_g2.go:155-188. -/
def anonymizePlaceRecordG2 (r : PlaceRecordG2) : PlaceRecordG2 := {
  base := {
    rawData := none
    entryTime := r.base.entryTime
    entryType := r.base.entryType
    unrecognizedEntryType := r.base.unrecognizedEntryType
    country := nationNumeric_finland
    unrecognizedCountry := none
    region := [1]
    odometerKm := r.base.odometerKm.tdiv 100 * 100 }
  gnss := anonymizeGNSSPlaceRecord r.gnss }

/-! ## SpecificConditionRecord -/

/-- `SpecificConditionRecord` message. -/
structure SpecificConditionRecord where
  entryTime : Option Timestamp
  type : Int
  unrecognizedType : Option Int
  deriving Repr, DecidableEq

/-- `UnmarshalSpecificConditionRecord`, internal/dd/specific_condition_record.go:19-48. -/
def unmarshalSpecificConditionRecord (data : Bytes) : Res SpecificConditionRecord := do
  if data.length ≠ 5 then .err "invalid data length for SpecificConditionRecord"
  let t ← sl? data 0 4
  let ts ← unmarshalTimeReal t
  let b ← at? data 4
  return {
    entryTime := ts
    type := (enumOrUnrecognized specificConditionTypeTable b).1
    unrecognizedType := (enumOrUnrecognized specificConditionTypeTable b).2 }

/-- `AppendSpecificConditionRecord`, internal/dd/specific_condition_record.go:60-91. -/
def appendSpecificConditionRecord (dst : Bytes) (r : Option SpecificConditionRecord) : Res Bytes :=
  match r with
  | none => .err "specific condition record cannot be nil"
  | some r => do
    let dst ← appendTimeReal dst r.entryTime
    let b ← enumByte specificConditionTypeTable r.type r.unrecognizedType
    return dst ++ [b]

/-! ## CardVehicleRecord -/

section
variable [Charmap]

/-- `CardVehicleRecord` message. -/
structure CardVehicleRecord where
  rawData : Option Bytes
  odometerBegin : Int
  odometerEnd : Int
  firstUse : Option Timestamp
  lastUse : Option Timestamp
  registration : Option VehicleRegistration
  counter : Option BcdString
  deriving Repr, DecidableEq

/-- `UnmarshalCardVehicleRecord`, internal/dd/card_vehicle_record.go:25-82, without the length
check, which differs between generations. -/
def unmarshalCardVehicleFields (data : Bytes) : Res CardVehicleRecord := do
  let a ← sl? data 0 3
  let b ← sl? data 3 6
  let t ← sl? data 6 10
  let firstUse ← unmarshalTimeReal t
  let t ← sl? data 10 14
  let lastUse ← unmarshalTimeReal t
  let v ← sl? data 14 29
  let reg ← unmarshalVehicleRegistration v
  let c ← sl? data 29 31
  let counter ← unmarshalBcdString c
  return {
    rawData := some data
    odometerBegin := (beNat a : Int)
    odometerEnd := (beNat b : Int)
    firstUse := firstUse
    lastUse := lastUse
    registration := some reg
    counter := some counter }

/-- `UnmarshalCardVehicleRecord`, internal/dd/card_vehicle_record.go:25-82. -/
def unmarshalCardVehicleRecord (data : Bytes) : Res CardVehicleRecord :=
  if data.length ≠ 31 then .err "invalid data length for Gen1 CardVehicleRecord"
  else unmarshalCardVehicleFields data

omit [Charmap] in
/-- The first 31 bytes of both vehicle records, internal/dd/card_vehicle_record.go:97-138 and
card_vehicle_record_g2.go:104-145. -/
def paintCardVehicle (canvas : Bytes) (r : CardVehicleRecord) : Res Bytes := do
  let canvas := paint canvas 0 3 (beBytes 3 (low 32 r.odometerBegin))
  let canvas := paint canvas 3 3 (beBytes 3 (low 32 r.odometerEnd))
  let t ← appendTimeReal [] r.firstUse
  let canvas := paint canvas 6 4 t
  let t ← appendTimeReal [] r.lastUse
  let canvas := paint canvas 10 4 t
  let v ← appendVehicleRegistration [] r.registration
  let canvas := paint canvas 14 15 v
  let c ← appendBcdString [] r.counter
  return paint canvas 29 2 c

omit [Charmap] in
/-- `AppendCardVehicleRecord`, internal/dd/card_vehicle_record.go:85-141. -/
def appendCardVehicleRecord (dst : Bytes) (r : CardVehicleRecord) : Res Bytes := do
  let canvas ← canvasNonEmpty r.rawData 31
  let canvas ← paintCardVehicle canvas r
  return dst ++ canvas

omit [Charmap] in
/-- `AnonymizeCardVehicleRecord`, internal/dd/card_vehicle_record.go:156-205. -/
def anonymizeCardVehicleRecord (r : CardVehicleRecord) (index : Nat) : CardVehicleRecord :=
  let first : Int := 1577836800 + (index : Int) * 86400
  let result : CardVehicleRecord := {
    rawData := none
    odometerBegin := r.odometerBegin.tdiv 1000 * 1000
    odometerEnd := r.odometerEnd.tdiv 1000 * 1000
    firstUse := some ⟨first, 0⟩
    lastUse := some ⟨first + 86400 - 1, 0⟩
    registration := r.registration.map (fun v => {
      nation := v.nation
      number := some {
        encoding := encoding_iso88591, rawData := none, length := some 13
        value := [0x54, 0x45, 0x53, 0x54, 0x2D, 0x56, 0x52, 0x4E] } })
    counter := r.counter }
  match appendCardVehicleRecord [] result with
  | .ok b => { result with rawData := some b }
  | _ => result

/-- `CardVehicleRecordG2` message. -/
structure CardVehicleRecordG2 where
  base : CardVehicleRecord
  vin : Bytes
  deriving Repr, DecidableEq

omit [Charmap] in
/-- `strings.TrimRight(s, "\x00 ")`: trailing NUL bytes and spaces (ASCII cutset, bytewise). -/
def trimNulSpace (s : Bytes) : Bytes := (s.reverse.dropWhile (fun b => b == 0 || b == 0x20)).reverse

/-- `UnmarshalCardVehicleRecordG2`, internal/dd/card_vehicle_record_g2.go:26-89. -/
def unmarshalCardVehicleRecordG2 (data : Bytes) : Res CardVehicleRecordG2 := do
  if data.length ≠ 48 then .err "invalid data length for Gen2 CardVehicleRecord"
  let base ← unmarshalCardVehicleFields data
  let v ← sl? data 31 48
  return { base := base, vin := trimNulSpace v }

omit [Charmap] in
/-- `AppendCardVehicleRecordG2`, internal/dd/card_vehicle_record_g2.go:92-158. The VIN is cut or
space-padded to 17 bytes. -/
def appendCardVehicleRecordG2 (dst : Bytes) (r : CardVehicleRecordG2) : Res Bytes := do
  let canvas ← canvasNonEmpty r.base.rawData 48
  let canvas ← paintCardVehicle canvas r.base
  return dst ++ paint canvas 31 17 (padSpaces (r.vin.take 17) 17)

/-! ## PreviousVehicleInfo -/

/-- `PreviousVehicleInfo` message. -/
structure PreviousVehicleInfo where
  rawData : Option Bytes
  registration : Option VehicleRegistration
  withdrawalTime : Option Timestamp
  deriving Repr, DecidableEq

instance : Inhabited PreviousVehicleInfo := ⟨⟨none, none, none⟩⟩

/-- The two fields common to both generations. -/
def unmarshalPreviousVehicleFields (data : Bytes) : Res PreviousVehicleInfo := do
  let v ← sl? data 0 15
  let reg ← unmarshalVehicleRegistration v
  let t ← sl? data 15 19
  let ts ← unmarshalTimeReal t
  return { rawData := some data, registration := some reg, withdrawalTime := ts }

/-- `UnmarshalPreviousVehicleInfo`, internal/dd/previous_vehicle_info.go:19-48. -/
def unmarshalPreviousVehicleInfo (data : Bytes) : Res PreviousVehicleInfo :=
  if data.length ≠ 19 then .err "invalid data length for Gen1 PreviousVehicleInfo"
  else unmarshalPreviousVehicleFields data

omit [Charmap] in
/-- The first 19 bytes of both, internal/dd/previous_vehicle_info.go:63-78. -/
def paintPreviousVehicle (canvas : Bytes) (p : PreviousVehicleInfo) : Res Bytes := do
  let v ← appendVehicleRegistration [] p.registration
  let canvas := paint canvas 0 15 v
  let t ← appendTimeReal [] p.withdrawalTime
  return paint canvas 15 4 t

omit [Charmap] in
/-- `AppendPreviousVehicleInfo`, internal/dd/previous_vehicle_info.go:51-81. -/
def appendPreviousVehicleInfo (dst : Bytes) (p : PreviousVehicleInfo) : Res Bytes := do
  let canvas ← canvasNonEmpty p.rawData 19
  let canvas ← paintPreviousVehicle canvas p
  return dst ++ canvas

/-- `PreviousVehicleInfoG2` message. -/
structure PreviousVehicleInfoG2 where
  base : PreviousVehicleInfo
  vuGeneration : Int
  deriving Repr, DecidableEq

/-- `UnmarshalPreviousVehicleInfoG2`, internal/dd/previous_vehicle_info_g2.go:20-57. -/
def unmarshalPreviousVehicleInfoG2 (data : Bytes) : Res PreviousVehicleInfoG2 := do
  if data.length ≠ 20 then .err "invalid data length for Gen2 PreviousVehicleInfo"
  let base ← unmarshalPreviousVehicleFields data
  let g ← at? data 19
  let gen ← unmarshalEnum generationTable g
  return { base := base, vuGeneration := gen }

omit [Charmap] in
/-- `AppendPreviousVehicleInfoG2`, internal/dd/previous_vehicle_info_g2.go:60-97. -/
def appendPreviousVehicleInfoG2 (dst : Bytes) (p : PreviousVehicleInfoG2) : Res Bytes := do
  let canvas ← canvasNonEmpty p.base.rawData 20
  let canvas ← paintPreviousVehicle canvas p.base
  let g ← marshalEnum generationTable p.vuGeneration
  return dst ++ paint canvas 19 1 [g]

/-! ## VuCardIWRecord -/

/-- `VuCardIWRecord` message. -/
structure VuCardIWRecord where
  rawData : Option Bytes
  holderName : Option HolderName
  fullCardNumber : Option FullCardNumber
  expiryDate : Option Date
  insertionTime : Option Timestamp
  odometerAtInsertion : Int
  slot : Int
  withdrawalTime : Option Timestamp
  odometerAtWithdrawal : Int
  previousVehicle : Option PreviousVehicleInfo
  manualInput : Bool
  deriving Repr, DecidableEq

/-- `UnmarshalVuCardIWRecord`, internal/dd/vu_card_iw_record.go:39-138. -/
def unmarshalVuCardIWRecord (data : Bytes) : Res VuCardIWRecord := do
  if data.length ≠ 129 then .err "invalid data length for VuCardIWRecord"
  let d ← sl? data 0 72
  let holderName ← unmarshalHolderName d
  let d ← sl? data 72 90
  let fcn ← unmarshalFullCardNumber d
  let d ← sl? data 90 94
  let expiry ← unmarshalDate d
  let d ← sl? data 94 98
  let insertion ← unmarshalTimeReal d
  let d ← sl? data 98 101
  let odoIn ← unmarshalOdometer d
  let b ← at? data 101
  let slot ← unmarshalEnum cardSlotNumberTable b
  let d ← sl? data 102 106
  let withdrawal ← unmarshalTimeReal d
  let d ← sl? data 106 109
  let odoOut ← unmarshalOdometer d
  let d ← sl? data 109 128
  let prev ← unmarshalPreviousVehicleInfo d
  let flag ← at? data 128
  return {
    rawData := some data
    holderName := some holderName
    fullCardNumber := some fcn
    expiryDate := some expiry
    insertionTime := insertion
    odometerAtInsertion := (odoIn : Int)
    slot := slot
    withdrawalTime := withdrawal
    odometerAtWithdrawal := (odoOut : Int)
    previousVehicle := some prev
    manualInput := flag != 0 }

omit [Charmap] in
/-- `AppendVuCardIWRecord`, internal/dd/vu_card_iw_record.go:141-226. The error of marshalling the slot
number is ignored. -/
def appendVuCardIWRecord (dst : Bytes) (r : VuCardIWRecord) : Res Bytes := do
  let canvas ← canvasNonEmpty r.rawData 129
  let b ← appendHolderName [] r.holderName
  let canvas := paint canvas 0 72 b
  let b ← appendFullCardNumber [] r.fullCardNumber
  let canvas := paint canvas 72 18 b
  let b ← appendDate [] (r.expiryDate.getD default)
  let canvas := paint canvas 90 4 b
  let b ← appendTimeReal [] r.insertionTime
  let canvas := paint canvas 94 4 b
  let canvas := paint canvas 98 3 (appendOdometer [] (low 32 r.odometerAtInsertion))
  let slotByte := match marshalEnum cardSlotNumberTable r.slot with | .ok b => b | _ => 0
  let canvas := paint canvas 101 1 [slotByte]
  let b ← appendTimeReal [] r.withdrawalTime
  let canvas := paint canvas 102 4 b
  let canvas := paint canvas 106 3 (appendOdometer [] (low 32 r.odometerAtWithdrawal))
  let b ← appendPreviousVehicleInfo [] (r.previousVehicle.getD default)
  let canvas := paint canvas 109 19 b
  return dst ++ paint canvas 128 1 [if r.manualInput then 1 else 0]

end

end Tacho
