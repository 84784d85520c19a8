import Verif.Model.Records
import Verif.Model.Activity
import Verif.Model.RawCard
/-!
# Elementary files of driver cards (internal/card)

The `signature` field of each message is set by the card file reader, not by these functions, and no
Append function reads it; it is modelled in `Verif.Model.DriverCard`. Integer fields with explicit
presence are modelled by their getter value where the writer writes the same bytes for an absent field
as for a zero.
-/

namespace Tacho

/-- Consecutive whole records of `n` bytes; a shorter tail is left out. The reading loops
`for r.Len() >= n`, `for i < len/n` and `for offset+n <= len` all visit these slices in order. -/
def cut (n : Nat) (d : Bytes) : List Bytes :=
  if 0 < n ∧ n ≤ d.length then d.take n :: cut n (d.drop n) else []
termination_by d.length
decreasing_by simp; omega

/-- A loop that parses each item and returns the first error. -/
def mapRes {α β : Type} (f : α → Res β) : List α → Res (List β)
  | [] => .ok []
  | x :: xs => do
    let y ← f x
    let ys ← mapRes f xs
    return y :: ys

/-- A loop that parses items until the first error, which it swallows (`break`). -/
def mapUntilErr {α β : Type} (f : α → Res β) : List α → Res (List β)
  | [] => .ok []
  | x :: xs =>
    match f x with
    | .ok y => do
      let ys ← mapUntilErr f xs
      return y :: ys
    | .err _ => .ok []
    | .panic => .panic

/-- The writing loop `for _, r := range records { dst, err = f(dst, r) }`. -/
def appendEach {α : Type} (f : Bytes → α → Res Bytes) (dst : Bytes) : List α → Res Bytes
  | [] => .ok dst
  | x :: xs => do
    let dst ← f dst x
    appendEach f dst xs

/-- The writing loop that renders each record to its own slice, checks its size and copies it onto the
canvas. -/
def paintEach {α : Type} (f : Bytes → α → Res Bytes) (n : Nat) (canvas : Bytes) (off : Nat) : List α → Res Bytes
  | [] => .ok canvas
  | x :: xs => do
    let b ← f [] x
    if b.length ≠ n then .err "invalid record size"
    paintEach f n (paint canvas off n b) (off + n) xs

/-- The fallback writing loop that renders each record to its own slice and appends it, unchecked. -/
def appendEachNew {α : Type} (f : Bytes → α → Res Bytes) (dst : Bytes) : List α → Res Bytes
  | [] => .ok dst
  | x :: xs => do
    let b ← f [] x
    appendEachNew f (dst ++ b) xs

/-! ## EF_Card_Download, EF_IC, EF_ICC -/

/-- `CardDownloadDriver` message. -/
structure CardDownload where
  timestamp : Option Timestamp
  deriving Repr, DecidableEq

/-- `unmarshalCardDownload`, internal/card/card_download.go:18-37. -/
def unmarshalCardDownload (data : Bytes) : Res CardDownload := do
  if data.length < 4 then .err "insufficient data for card download"
  let t ← sl? data 0 4
  let ts ← unmarshalTimeReal t
  return { timestamp := ts }

/-- `appendCardDownload`, internal/card/card_download.go:46-59. -/
def appendCardDownload (dst : Bytes) (c : Option CardDownload) : Res Bytes :=
  match c with
  | none => .ok dst
  | some c => appendTimeReal dst c.timestamp

/-- `Ic` message. -/
structure Ic where
  serialNumber : Bytes
  manufacturingReferences : Bytes
  deriving Repr, DecidableEq

/-- `unmarshalIc`, internal/card/ic.go:20-49. `bytes.Reader.Read` fills both slices, as at least eight
bytes are present. -/
def unmarshalIc (data : Bytes) : Res Ic := do
  if data.length < 8 then .err "insufficient data for IC identification"
  let a ← sl? data 0 4
  let b ← sl? data 4 8
  return { serialNumber := a, manufacturingReferences := b }

/-- Cut or zero-pad to four bytes, internal/card/ic.go:72-80 and 83-91. -/
def fit4 (b : Bytes) : Bytes := if b.length ≥ 4 then b.take 4 else b ++ zeros (4 - b.length)

/-- `appendCardIc`, internal/card/ic.go:61-94. -/
def appendCardIc (dst : Bytes) (ic : Option Ic) : Res Bytes :=
  match ic with
  | none => .ok dst
  | some ic => .ok (dst ++ fit4 ic.serialNumber ++ fit4 ic.manufacturingReferences)

/-- `Icc_EmbedderIcAssemblerId` message. -/
structure EmbedderId where
  countryCode : Option Ia5StringValue
  moduleEmbedder : Option Ia5StringValue
  manufacturerInformation : Int
  deriving Repr, DecidableEq

/-- `Icc` message. -/
structure Icc where
  clockStop : Int
  serialNumber : Option ExtendedSerialNumber
  approvalNumber : Option Ia5StringValue
  personaliserId : Int
  embedder : Option EmbedderId
  icIdentifier : Bytes
  deriving Repr, DecidableEq

/-- `unmarshalIcc`, internal/card/icc.go:28-150. -/
def unmarshalIcc (data : Bytes) : Res Icc := do
  if data.length < 25 then .err "not enough data for IccIdentification"
  let b ← at? data 0
  let clockStop ← unmarshalEnum clockStopModeTable b
  let s ← sl? data 1 9
  let sn ← sl? s 0 4
  let m ← sl? s 4 6
  let my ← unmarshalMonthYear m
  let t ← at? s 6
  let et ← unmarshalEnum equipmentTypeTable t
  let mc ← at? s 7
  let a ← sl? data 9 17
  let approval ← unmarshalIa5StringValue a
  let p ← at? data 17
  let e ← sl? data 18 23
  let c ← sl? e 0 2
  let country ← unmarshalIa5StringValue c
  let c ← sl? e 2 4
  let mod ← unmarshalIa5StringValue c
  let mi ← at? e 4
  let i ← sl? data 23 25
  return {
    clockStop := clockStop
    serialNumber := some {
      serialNumber := (beNat sn : Int)
      monthYear := some my
      type := et
      manufacturerCode := (mc.toNat : Int) }
    approvalNumber := some approval
    personaliserId := (p.toNat : Int)
    embedder := some {
      countryCode := some country
      moduleEmbedder := some mod
      manufacturerInformation := (mi.toNat : Int) }
    icIdentifier := i }

/-- `appendEmbedderIcAssemblerId`, internal/card/icc.go:211-236. -/
def appendEmbedderId (dst : Bytes) (e : Option EmbedderId) : Res Bytes :=
  match e with
  | none => .ok (dst ++ zeros 5)
  | some e => do
    let dst ← appendIa5StringValue dst e.countryCode
    let dst ← appendIa5StringValue dst e.moduleEmbedder
    return dst ++ [i2b e.manufacturerInformation]

/-- `appendIcc`, internal/card/icc.go:166-208. (The caller never passes nil.) -/
def appendIcc (dst : Bytes) (icc : Icc) : Res Bytes := do
  let c ← marshalEnum clockStopModeTable icc.clockStop
  let dst := dst ++ [c]
  let dst ← appendExtendedSerialNumberAsString dst icc.serialNumber
  let dst ← appendIa5StringValue dst icc.approvalNumber
  let dst := dst ++ [i2b icc.personaliserId]
  let dst ← appendEmbedderId dst icc.embedder
  return dst ++ icc.icIdentifier

/-! ## EF_Application_Identification -/

/-- `ApplicationIdentification_Driver` message. -/
structure DriverCounts where
  eventsPerType : Int
  faultsPerType : Int
  activityLength : Int
  vehicleRecords : Int
  placeRecords : Int
  deriving Repr, DecidableEq

/-- `ApplicationIdentification` message. `driver` is present when `card_type == DRIVER_CARD` and the
driver message is not nil; absent integers are zero. -/
structure AppId where
  typeOfCard : Int
  structureVersion : Option CardStructureVersion
  driver : Option DriverCounts
  deriving Repr, DecidableEq

/-- `unmarshalApplicationIdentification`, internal/card/application_identification.go:29-108. -/
def unmarshalAppId (data : Bytes) : Res AppId := do
  if data.length ≠ 10 then .err "invalid data length for Gen1 application identification"
  let b ← at? data 0
  let t ← unmarshalEnum equipmentTypeTable b
  let v ← sl? data 1 3
  let csv ← unmarshalCardStructureVersion v
  let ev ← at? data 3
  let fa ← at? data 4
  let al ← sl? data 5 7
  let vr ← sl? data 7 9
  let pr ← at? data 9
  return {
    typeOfCard := t
    structureVersion := some csv
    driver := some {
      eventsPerType := ev.toNat
      faultsPerType := fa.toNat
      activityLength := beNat al
      vehicleRecords := beNat vr
      placeRecords := pr.toNat } }

/-- `MarshalEnum` with the error ignored, which leaves a zero byte. -/
def marshalEnumLax (t : EnumTable) (v : Int) : UInt8 :=
  match marshalEnum t v with
  | .ok b => b
  | _ => 0

/-- `appendCardApplicationIdentification`, internal/card/application_identification.go:126-205. -/
def appendAppId (dst : Bytes) (a : Option AppId) : Res Bytes :=
  match a with
  | none => .ok dst
  | some a => do
    let dst := dst ++ [marshalEnumLax equipmentTypeTable a.typeOfCard]
    let dst ← (match a.structureVersion with
      | some v => appendCardStructureVersion dst v
      | none => .ok (dst ++ [0, 1]))
    match a.driver with
    | none => return dst ++ zeros 7
    | some d =>
      return dst ++ [i2b d.eventsPerType] ++ [i2b d.faultsPerType] ++ beBytes 2 (low 16 d.activityLength)
        ++ beBytes 2 (low 16 d.vehicleRecords) ++ [i2b d.placeRecords]

/-- `ApplicationIdentificationG2_Driver` message. -/
structure DriverCountsG2 where
  eventsPerType : Int
  faultsPerType : Int
  activityLength : Int
  vehicleRecords : Int
  placeRecords : Int
  gnssRecords : Int
  conditionRecords : Int
  vehicleUnitRecords : Int
  deriving Repr, DecidableEq

/-- `ApplicationIdentificationG2` message, with the driver part as in `AppId`. -/
structure AppIdG2 where
  typeOfCard : Int
  structureVersion : Option CardStructureVersion
  driver : Option DriverCountsG2
  deriving Repr, DecidableEq

/-- `unmarshalApplicationIdentificationG2`, internal/card/application_identification_g2.go:32-134. -/
def unmarshalAppIdG2 (data : Bytes) : Res AppIdG2 := do
  if data.length ≠ 17 then .err "invalid data length for Gen2 application identification"
  let b ← at? data 0
  let t ← unmarshalEnum equipmentTypeTable b
  let v ← sl? data 1 3
  let csv ← unmarshalCardStructureVersion v
  let ev ← at? data 3
  let fa ← at? data 4
  let al ← sl? data 5 7
  let vr ← sl? data 7 9
  let pr ← sl? data 9 11
  let gn ← sl? data 11 13
  let sc ← sl? data 13 15
  let vu ← sl? data 15 17
  return {
    typeOfCard := t
    structureVersion := some csv
    driver := some {
      eventsPerType := ev.toNat
      faultsPerType := fa.toNat
      activityLength := beNat al
      vehicleRecords := beNat vr
      placeRecords := beNat pr
      gnssRecords := beNat gn
      conditionRecords := beNat sc
      vehicleUnitRecords := beNat vu } }

/-- `appendCardApplicationIdentificationG2`, internal/card/application_identification_g2.go:154-264.
Without a driver part 14 zero bytes are written. -/
def appendAppIdG2 (dst : Bytes) (a : Option AppIdG2) : Res Bytes :=
  match a with
  | none => .ok dst
  | some a => do
    let dst := dst ++ [marshalEnumLax equipmentTypeTable a.typeOfCard]
    let dst ← (match a.structureVersion with
      | some v => appendCardStructureVersion dst v
      | none => .ok (dst ++ [0, 1]))
    match a.driver with
    | none => return dst ++ zeros 14
    | some d =>
      return dst ++ [i2b d.eventsPerType] ++ [i2b d.faultsPerType] ++ beBytes 2 (low 16 d.activityLength)
        ++ beBytes 2 (low 16 d.vehicleRecords) ++ beBytes 2 (low 16 d.placeRecords) ++ beBytes 2 (low 16 d.gnssRecords)
        ++ beBytes 2 (low 16 d.conditionRecords) ++ beBytes 2 (low 16 d.vehicleUnitRecords)

/-- `ApplicationIdentificationV2` message: border crossings, load/unload, load types, configuration
length, as selected by the card type (all zero when the selected part is nil; company and control cards
only have the last). -/
structure AppIdV2 where
  borderCrossings : Int
  loadUnload : Int
  loadTypes : Int
  vuConfigurationLength : Int
  deriving Repr, DecidableEq

/-- `unmarshalApplicationIdentificationV2`, internal/card/application_identification_v2.go:23-70. -/
def unmarshalAppIdV2 (data : Bytes) : Res AppIdV2 := do
  if data.length < 4 then .err "insufficient data for application identification V2"
  let a ← at? data 0
  let b ← at? data 1
  let c ← at? data 2
  let d ← at? data 3
  return { borderCrossings := a.toNat, loadUnload := b.toNat, loadTypes := c.toNat, vuConfigurationLength := d.toNat }

/-- `appendCardApplicationIdentificationV2`, internal/card/application_identification_v2.go:84-130. -/
def appendAppIdV2 (dst : Bytes) (a : Option AppIdV2) : Res Bytes :=
  match a with
  | none => .ok dst
  | some a => .ok (dst ++ [i2b a.borderCrossings] ++ [i2b a.loadUnload] ++ [i2b a.loadTypes] ++ [i2b a.vuConfigurationLength])

/-! ## EF_Current_Usage, EF_Driving_Licence_Info, EF_Control_Activity_Data -/

section
variable [Charmap]

/-- `CurrentUsage` message. -/
structure CurrentUsage where
  openTime : Option Timestamp
  vehicle : Option VehicleRegistration
  deriving Repr, DecidableEq

/-- `unmarshalCurrentUsage`, internal/card/current_usage.go:21-54. -/
def unmarshalCurrentUsage (data : Bytes) : Res CurrentUsage := do
  if data.length < 19 then .err "insufficient data for current usage"
  let t ← sl? data 0 4
  let ts ← unmarshalTimeReal t
  let v ← sl? data 4 19
  let reg ← unmarshalVehicleRegistration v
  return { openTime := ts, vehicle := some reg }

omit [Charmap] in
/-- `appendCurrentUsage`, internal/card/current_usage.go:66-91. (Line 75 returns the slice together with
the error; `AppendTimeReal` never fails.) -/
def appendCurrentUsage (dst : Bytes) (c : Option CurrentUsage) : Res Bytes :=
  match c with
  | none => .ok dst
  | some c => do
    let dst ← appendTimeReal dst c.openTime
    match c.vehicle with
    | some v => appendVehicleRegistration dst (some v)
    | none => return dst ++ zeros 15

/-- `DrivingLicenceInfo` message. -/
structure DrivingLicenceInfo where
  authority : Option StringValue
  nation : Int
  number : Option Ia5StringValue
  deriving Repr, DecidableEq

/-- `unmarshalDrivingLicenceInfo`, internal/card/driving_licence.go:24-70. -/
def unmarshalDrivingLicenceInfo (data : Bytes) : Res DrivingLicenceInfo := do
  if data.length < 53 then .err "not enough data for DrivingLicenceInfo"
  let a ← sl? data 0 36
  let authority ← unmarshalStringValue a
  let b ← at? data 36
  let n ← sl? data 37 53
  let number ← unmarshalIa5StringValue n
  return { authority := some authority, nation := enumOr1 nationNumericTable b, number := some number }

omit [Charmap] in
/-- `appendDrivingLicenceInfo`, internal/card/driving_licence.go:83-103. -/
def appendDrivingLicenceInfo (dst : Bytes) (d : Option DrivingLicenceInfo) : Res Bytes :=
  match d with
  | none => .ok dst
  | some d => do
    let dst ← appendStringValue dst d.authority
    let b ← marshalEnum nationNumericTable d.nation
    appendIa5StringValue (dst ++ [b]) d.number

/-- `ControlActivityData` message. -/
structure ControlActivity where
  valid : Bool
  rawData : Option Bytes
  controlType : Option ControlType
  controlTime : Option Timestamp
  cardNumber : Option FullCardNumberAndGeneration
  registration : Option VehicleRegistration
  periodBegin : Option Timestamp
  periodEnd : Option Timestamp
  deriving Repr, DecidableEq

/-- `unmarshalControlActivityData`, internal/card/control_activity.go:27-131. -/
def unmarshalControlActivity (data : Bytes) : Res ControlActivity := do
  if data.length < 46 then .err "insufficient data for control activity data"
  let t ← sl? data 1 5
  if beNat t = 0 then
    return { valid := false, rawData := some data, controlType := none, controlTime := none, cardNumber := none
             registration := none, periodBegin := none, periodEnd := none }
  else do
    let c ← sl? data 0 1
    let ct ← unmarshalControlType c
    let ts ← unmarshalTimeReal t
    let n ← sl? data 5 23
    let number ← unmarshalIa5StringValue n
    let v ← sl? data 23 38
    let reg ← unmarshalVehicleRegistration v
    let b ← sl? data 38 42
    let pb ← unmarshalTimeReal b
    let e ← sl? data 42 46
    let pe ← unmarshalTimeReal e
    return {
      valid := true
      rawData := none
      controlType := some ct
      controlTime := ts
      cardNumber := some {
        number := some {
          cardType := equipmentType_driverCard
          issuingState := 0
          driver := some { number := some number }
          owner := none }
        generation := 1 }
      registration := some reg
      periodBegin := pb
      periodEnd := pe }

omit [Charmap] in
/-- `appendCardControlActivityData`, internal/card/control_activity.go:147-225. The control type byte is
rebuilt from the five flags (lines 164-190). -/
def appendControlActivity (dst : Bytes) (c : Option ControlActivity) : Res Bytes :=
  match c with
  | none => .ok dst
  | some c =>
    if c.valid = false then
      if (c.rawData.getD []).length ≠ 46 then .ok (dst ++ zeros 46)
      else .ok (dst ++ c.rawData.getD [])
    else do
      let ct : UInt8 := match c.controlType with
        | none => 0
        | some t =>
          (if t.cardDownloading then 0x80 else 0) ||| (if t.vuDownloading then 0x40 else 0) |||
          (if t.printing then 0x20 else 0) ||| (if t.display then 0x10 else 0) |||
          (if t.calibrationChecking then 0x08 else 0)
      let dst ← appendTimeReal (dst ++ [ct]) c.controlTime
      let dst ← appendFullCardNumberAsString dst (c.cardNumber.bind (·.number))
      let dst ← appendVehicleRegistration dst c.registration
      let dst ← appendTimeReal dst c.periodBegin
      appendTimeReal dst c.periodEnd

/-! ## EF_Identification -/

/-- `Identification_Card` message. The card number is a oneof of driver and owner identification. -/
structure CardIdent where
  issuingState : Int
  driver : Option DriverIdentification
  owner : Option OwnerIdentification
  authority : Option StringValue
  issueDate : Option Timestamp
  validityBegin : Option Timestamp
  expiryDate : Option Timestamp
  deriving Repr, DecidableEq

/-- `Identification_DriverCardHolder` message. -/
structure DriverHolder where
  surname : Option StringValue
  firstNames : Option StringValue
  birthDate : Option Date
  language : Option Ia5StringValue
  deriving Repr, DecidableEq

/-- `Identification` message. Holders of other card types are only touched by the anonymiser. -/
structure Identification where
  cardType : CardType
  card : Option CardIdent
  driverHolder : Option DriverHolder
  deriving Repr, DecidableEq

omit [Charmap] in
/-- The card number of EF_Identification, internal/card/identification.go:80-180: 14 bytes and two
ASCII digits make a driver card, anything else is an owner identification and a workshop card. The error
branch of line 146 is modelled although a 14-byte IA5 string always parses. -/
def unmarshalCardNumber (d : Bytes) : Res (CardType × Option DriverIdentification × Option OwnerIdentification) := do
  let n ← sl? d 0 14
  let owner : Res OwnerIdentification := do
    let a ← sl? d 0 13
    let o ← unmarshalIa5StringValue a
    let b ← sl? d 13 14
    let c ← unmarshalIa5StringValue b
    let b ← sl? d 14 15
    let r ← unmarshalIa5StringValue b
    let b ← sl? d 15 16
    let w ← unmarshalIa5StringValue b
    return { owner := some o, consecutive := some c, replacement := some r, renewal := some w }
  match unmarshalIa5StringValue n with
  | .ok id => do
    let r ← at? d 14
    let w ← at? d 15
    if 0x30 ≤ r ∧ r ≤ 0x39 ∧ 0x30 ≤ w ∧ w ≤ 0x39 then do
      let b ← sl? d 14 15
      let ri := match unmarshalIa5StringValue b with
        | .ok x => some x
        | _ => none
      let b ← sl? d 15 16
      let wi := match unmarshalIa5StringValue b with
        | .ok x => some x
        | _ => none
      return (.driverCard, some { number := some id, replacement := ri, renewal := wi }, none)
    else do
      let o ← owner
      return (.workshopCard, none, some o)
  | _ => do
    let o ← owner
    return (.workshopCard, none, some o)

/-- `unmarshalIdentification`, internal/card/identification.go:44-278. -/
def unmarshalIdentification (data : Bytes) : Res Identification := do
  if data.length < 143 then .err "not enough data for EF_Identification"
  let b ← at? data 0
  let num ← sl? data 1 17
  let (ct, driver, owner) ← unmarshalCardNumber num
  let a ← sl? data 17 53
  let authority ← unmarshalStringValue a
  let t ← sl? data 53 57
  let issue ← unmarshalTimeReal t
  let t ← sl? data 57 61
  let vbegin ← unmarshalTimeReal t
  let t ← sl? data 61 65
  let expiry ← unmarshalTimeReal t
  let s ← sl? data 65 101
  let surname ← unmarshalStringValue s
  let s ← sl? data 101 137
  let first ← unmarshalStringValue s
  let bd ← sl? data 137 141
  let birth ← unmarshalDate bd
  let l ← sl? data 141 143
  let lang ← unmarshalIa5StringValue l
  return {
    cardType := ct
    card := some {
      issuingState := enumOr1 nationNumericTable b
      driver := driver
      owner := owner
      authority := some authority
      issueDate := issue
      validityBegin := vbegin
      expiryDate := expiry }
    driverHolder := some {
      surname := some surname
      firstNames := some first
      birthDate := some birth
      language := some lang } }

omit [Charmap] in
/-- First byte of an optional string value, or a default: identification.go:347-358 and 374-397. -/
def firstByteOr (s : Option Ia5StringValue) (d : UInt8) : UInt8 :=
  match s with
  | some v => v.value.headD d
  | none => d

omit [Charmap] in
/-- The 16 card number bytes, internal/card/identification.go:330-398. -/
def cardNumberBytes (id : CardIdent) : Bytes :=
  match id.driver with
  | some d =>
    (match d.number with
      | some n => padSpaces (n.value.take 14) 14
      | none => zeros 14) ++ [firstByteOr d.replacement 0x30, firstByteOr d.renewal 0x30]
  | none =>
    match id.owner with
    | some o =>
      (match o.owner with
        | some n => padSpaces (n.value.take 13) 13
        | none => zeros 13) ++ [firstByteOr o.consecutive 0, firstByteOr o.replacement 0, firstByteOr o.renewal 0]
    | none => zeros 16

omit [Charmap] in
/-- `appendCardIdentification`, internal/card/identification.go:294-417. -/
def appendCardIdentification (dst : Bytes) (id : Option CardIdent) : Res Bytes :=
  match id with
  | none => .ok dst
  | some id => do
    if id.issuingState = enumUnrecognized then .err "cannot marshal UNRECOGNIZED member state"
    let b ← marshalEnum nationNumericTable id.issuingState
    let dst ← appendStringValue (dst ++ [b] ++ cardNumberBytes id) id.authority
    let dst ← appendTimeReal dst id.issueDate
    let dst ← appendTimeReal dst id.validityBegin
    appendTimeReal dst id.expiryDate

omit [Charmap] in
/-- `appendDriverCardHolderIdentification`, internal/card/identification.go:431-463. -/
def appendDriverHolder (dst : Bytes) (h : Option DriverHolder) : Res Bytes :=
  match h with
  | none => .ok dst
  | some h => do
    let names ← appendStringValue [] h.surname
    let names ← appendStringValue names h.firstNames
    let dst := dst ++ names
    let dst ← (match h.birthDate with
      | some d => appendDate dst d
      | none => .ok (dst ++ [0, 0, 0, 0]))
    appendIa5StringValue dst h.language

omit [Charmap] in
/-- EF_Identification as written by `appendDriverCard`, internal/card/driver_card_file.go:652-664. -/
def appendIdentification (dst : Bytes) (i : Identification) : Res Bytes := do
  let v ← appendCardIdentification [] i.card
  let v ← appendDriverHolder v i.driverHolder
  return dst ++ v

/-! ## EF_Events_Data, EF_Faults_Data

Both files have the same code with other names (faults.go differs only in identifiers and in where
`SetValid` is called), so one model serves both. -/

/-- `EventsData_Record` / `FaultsData_Record` message. -/
structure EventRecord where
  valid : Bool
  rawData : Option Bytes
  type : Int
  beginTime : Option Timestamp
  endTime : Option Timestamp
  registration : Option VehicleRegistration
  deriving Repr, DecidableEq

omit [Charmap] in
/-- `splitCardEventRecord`, `splitCardFaultRecord` (events.go:35-44, faults.go:35-44) with n = 24;
`splitGNSSAccumulatedDrivingRecord` (gnss_places.go:72-83) with n = 18; `splitCardVehicleUnitRecord`
(vehicle_units_used.go:74-85) with n = 10. -/
def splitFixed (n : Nat) : SplitFn := fun data _ => if data.length < n then .more else .token n

/-- `unmarshalEventRecord`, internal/card/events.go:95-155, and `unmarshalFaultRecord`,
internal/card/faults.go:96-155. -/
def unmarshalEventRecord (data : Bytes) : Res EventRecord := do
  if data.length < 24 then .err "insufficient data for event record"
  let b ← at? data 0
  let t ← unmarshalEnum eventFaultTypeTable b
  let x ← sl? data 1 5
  let tb ← unmarshalTimeReal x
  let x ← sl? data 5 9
  let te ← unmarshalTimeReal x
  let v ← sl? data 9 24
  let reg ← unmarshalVehicleRegistration v
  return { valid := true, rawData := none, type := t, beginTime := tb, endTime := te, registration := some reg }

omit [Charmap] in
/-- The record with other raw bytes behind its registration number (used for slices that show a buffer). -/
def EventRecord.withNumberRaw (r : EventRecord) (raw : Option Bytes) : EventRecord :=
  { r with registration := r.registration.map fun v => { v with number := v.number.map fun s => { s with rawData := raw } } }

/-- One iteration of the loop in `unmarshalEventsData`, internal/card/events.go:51-71. A record with a
zero begin time keeps `scanner.Bytes()` itself as its raw data, and a valid one keeps bytes 10..24 of it as
the raw data of its registration number (internal/dd/string_value.go:37 stores its input slice), so what
they hold is what those slices show in the scanner's buffers when the loop has ended (`heap`). -/
def unmarshalEventToken (heap : List Bytes) (t : Tok) : Res EventRecord := do
  let x ← sl? t.bytes 1 5
  if beNat x = 0 then
    return { valid := false, rawData := deref heap t.ref, type := 0, beginTime := none, endTime := none, registration := none }
  else
    let r ← unmarshalEventRecord t.bytes
    return r.withNumberRaw ((deref heap t.ref).map (sl · 10 24))

/-- `unmarshalEventsData`, internal/card/events.go:46-81, and `unmarshalFaultsData`,
internal/card/faults.go:46-82. -/
def unmarshalEventsData (data : Bytes) : Res (List EventRecord) := do
  let out := scanAll (splitFixed 24) data
  let rs ← mapRes (unmarshalEventToken out.heap) out.toks
  match out.err with
  | some m => .err m
  | none => return rs

omit [Charmap] in
/-- `appendEventRecord`, internal/card/events.go:196-221, `appendFaultRecord`, faults.go:196-221. -/
def appendEventRecord (dst : Bytes) (r : EventRecord) : Res Bytes :=
  if r.valid = false then .ok (dst ++ r.rawData.getD [])
  else do
    let dst := dst ++ [marshalEnumLax eventFaultTypeTable r.type]
    let dst ← appendTimeReal dst r.beginTime
    let dst ← appendTimeReal dst r.endTime
    appendVehicleRegistration dst r.registration

omit [Charmap] in
/-- `appendEventsData`, internal/card/events.go:171-182, `appendFaultsData`, faults.go:171-182. -/
def appendEventsData (dst : Bytes) (rs : List EventRecord) : Res Bytes := appendEach appendEventRecord dst rs

/-! ## EF_Vehicles_Used, EF_Places, EF_Specific_Conditions

Files that keep their raw bytes and paint the records over them. -/

/-- `VehiclesUsed`, `Places`, `SpecificConditions` and their Gen2 messages: raw data, newest record
index, records. -/
structure RecordFile (α : Type) where
  rawData : Option Bytes
  newest : Int
  records : List α
  deriving Repr, DecidableEq

/-- `unmarshalVehiclesUsed`, internal/card/vehicles_used.go:15-74. -/
def unmarshalVehiclesUsed (data : Bytes) : Res (RecordFile CardVehicleRecord) := do
  if data.length < 2 then .err "insufficient data for vehicles used"
  let h ← sl? data 0 2
  let r ← from? data 2
  let rs ← mapRes unmarshalCardVehicleRecord (cut 31 r)
  return { rawData := some data, newest := (beNat h : Int), records := rs }

/-- `unmarshalVehiclesUsedG2`, internal/card/vehicles_used_g2.go:15-74. -/
def unmarshalVehiclesUsedG2 (data : Bytes) : Res (RecordFile CardVehicleRecordG2) := do
  if data.length < 2 then .err "insufficient data for vehicles used"
  let h ← sl? data 0 2
  let r ← from? data 2
  let rs ← mapRes unmarshalCardVehicleRecordG2 (cut 48 r)
  return { rawData := some data, newest := (beNat h : Int), records := rs }

omit [Charmap] in
/-- The common shape of `appendVehiclesUsed` (vehicles_used.go:77-126, header 2, records of 31),
`appendVehiclesUsedG2` (vehicles_used_g2.go:77-126, 2, 48), `appendPlacesG2` (places_g2.go:81-130, 2, 21):
raw data of exactly the expected size is painted over, otherwise everything is written afresh. -/
def appendRecordFile2 {α : Type} (f : Bytes → α → Res Bytes) (n : Nat) (dst : Bytes) (v : Option (RecordFile α)) : Res Bytes :=
  match v with
  | none => .ok dst
  | some v =>
    let raw := v.rawData.getD []
    if raw.length = 2 + v.records.length * n then do
      let canvas := paint raw 0 2 (beBytes 2 (low 16 v.newest))
      let canvas ← paintEach f n canvas 2 v.records
      return dst ++ canvas
    else appendEachNew f (dst ++ beBytes 2 (low 16 v.newest)) v.records

omit [Charmap] in
/-- `appendVehiclesUsed`, internal/card/vehicles_used.go:77-126. -/
def appendVehiclesUsed (dst : Bytes) (v : Option (RecordFile CardVehicleRecord)) : Res Bytes :=
  appendRecordFile2 appendCardVehicleRecord 31 dst v

omit [Charmap] in
/-- `appendVehiclesUsedG2`, internal/card/vehicles_used_g2.go:77-126. -/
def appendVehiclesUsedG2 (dst : Bytes) (v : Option (RecordFile CardVehicleRecordG2)) : Res Bytes :=
  appendRecordFile2 appendCardVehicleRecordG2 48 dst v

omit [Charmap] in
/-- The `AnonymizeCardVehicleRecord(record, i)` loop of `AnonymizeVehiclesUsed`, vehicles_used.go:150-153. -/
def anonymizeVehicleRecords : Nat → List CardVehicleRecord → List CardVehicleRecord
  | _, [] => []
  | i, r :: rs => anonymizeCardVehicleRecord r i :: anonymizeVehicleRecords (i + 1) rs

omit [Charmap] in
/-- `AnonymizeVehiclesUsed`, internal/card/vehicles_used.go:138-165, for a non-nil argument. -/
def anonymizeVehiclesUsed (v : RecordFile CardVehicleRecord) : RecordFile CardVehicleRecord :=
  let result : RecordFile CardVehicleRecord := { rawData := none, newest := v.newest, records := anonymizeVehicleRecords 0 v.records }
  match appendVehiclesUsed [] (some result) with
  | .ok b => { result with rawData := some b }
  | _ => result

end

/-- The record kept when a place record does not parse: only its raw data, places.go:62-67. -/
def invalidPlace (d : Bytes) : PlaceRecord :=
  { rawData := some d, entryTime := none, entryType := 0, unrecognizedEntryType := none, country := 0
    unrecognizedCountry := none, region := [], odometerKm := 0 }

/-- `parseCircularPlaceRecordsGen1` body, internal/card/places.go:56-70: parse errors become invalid
records. -/
def parsePlace (d : Bytes) : Res PlaceRecord :=
  match unmarshalPlaceRecord d with
  | .err _ => .ok (invalidPlace d)
  | r => r

/-- `unmarshalPlaces`, internal/card/places.go:18-46. -/
def unmarshalPlaces (data : Bytes) : Res (RecordFile PlaceRecord) := do
  if data.length < 1 then .err "insufficient data for places"
  let b ← at? data 0
  let r ← from? data 1
  let rs ← mapRes parsePlace (cut 10 r)
  return { rawData := some data, newest := (b.toNat : Int), records := rs }

/-- `appendPlaces`, internal/card/places.go:80-129. -/
def appendPlaces (dst : Bytes) (p : Option (RecordFile PlaceRecord)) : Res Bytes :=
  match p with
  | none => .ok dst
  | some p =>
    let raw := p.rawData.getD []
    if raw.length = 1 + p.records.length * 10 then do
      let canvas := paint raw 0 1 [i2b p.newest]
      let canvas ← paintEach appendPlaceRecord 10 canvas 1 p.records
      return dst ++ canvas
    else appendEachNew appendPlaceRecord (dst ++ [i2b p.newest]) p.records

/-- `parseCircularPlaceRecordsG2` body, internal/card/places_g2.go:57-71. -/
def parsePlaceG2 (d : Bytes) : Res PlaceRecordG2 :=
  match unmarshalPlaceRecordG2 d with
  | .err _ => .ok { base := invalidPlace d, gnss := none }
  | r => r

/-- `unmarshalPlacesG2`, internal/card/places_g2.go:19-47. -/
def unmarshalPlacesG2 (data : Bytes) : Res (RecordFile PlaceRecordG2) := do
  if data.length < 2 then .err "insufficient data for places"
  let h ← sl? data 0 2
  let r ← from? data 2
  let rs ← mapRes parsePlaceG2 (cut 21 r)
  return { rawData := some data, newest := (beNat h : Int), records := rs }

/-- `appendPlacesG2`, internal/card/places_g2.go:81-130. -/
def appendPlacesG2 (dst : Bytes) (v : Option (RecordFile PlaceRecordG2)) : Res Bytes :=
  appendRecordFile2 appendPlaceRecordG2 21 dst v

/-- `unmarshalSpecificConditions`, internal/card/specific_conditions.go:22-52. -/
def unmarshalSpecificConditions (data : Bytes) : Res (RecordFile SpecificConditionRecord) := do
  if data.length = 0 then return { rawData := none, newest := 0, records := [] }
  let rs ← mapUntilErr unmarshalSpecificConditionRecord (cut 5 data)
  return { rawData := some data, newest := 0, records := rs }

/-- `appendCardSpecificConditions`, internal/card/specific_conditions.go:64-107. -/
def appendSpecificConditions (dst : Bytes) (c : Option (RecordFile SpecificConditionRecord)) : Res Bytes :=
  match c with
  | none => .ok dst
  | some c =>
    let raw := c.rawData.getD []
    if raw.length = c.records.length * 5 then do
      let canvas ← paintEach (fun d r => appendSpecificConditionRecord d (some r)) 5 raw 0 c.records
      return dst ++ canvas
    else appendEach (fun d r => appendSpecificConditionRecord d (some r)) dst c.records

/-- `unmarshalSpecificConditionsG2`, internal/card/specific_conditions_g2.go:23-58. -/
def unmarshalSpecificConditionsG2 (data : Bytes) : Res (RecordFile SpecificConditionRecord) := do
  if data.length < 2 then .err "insufficient data for Gen2 specific conditions"
  let h ← sl? data 0 2
  let r ← from? data 2
  let rs ← mapUntilErr unmarshalSpecificConditionRecord (cut 5 r)
  return { rawData := some data, newest := (beNat h : Int), records := rs }

/-- The painting loop of `appendCardSpecificConditionsG2`, specific_conditions_g2.go:90-105; `none` is
`goto fallback`. -/
def paintConditionsG2 (canvas : Bytes) (off : Nat) : List SpecificConditionRecord → Res (Option Bytes)
  | [] => .ok (some canvas)
  | r :: rs =>
    if off + 5 > canvas.length then .ok none
    else do
      let b ← appendSpecificConditionRecord [] (some r)
      if b.length ≠ 5 then .err "invalid specific condition record size"
      paintConditionsG2 (paint canvas off 5 b) (off + 5) rs

/-- `appendCardSpecificConditionsG2`, internal/card/specific_conditions_g2.go:70-126. A raw data of one
byte makes `canvas[0:2]` panic. -/
def appendSpecificConditionsG2 (dst : Bytes) (c : Option (RecordFile SpecificConditionRecord)) : Res Bytes :=
  match c with
  | none => .ok dst
  | some c => do
    let raw := c.rawData.getD []
    let fallback : Res Bytes := appendEach (fun d r => appendSpecificConditionRecord d (some r))
      (dst ++ beBytes 2 (low 16 c.newest)) c.records
    if raw.length > 0 then do
      let _ ← sl? raw 0 2
      match ← paintConditionsG2 (paint raw 0 2 (beBytes 2 (low 16 c.newest))) 2 c.records with
      | some canvas => return dst ++ canvas
      | none => fallback
    else fallback

/-! ## EF_GNSS_Places, EF_Vehicle_Units_Used -/

/-- `GnssPlaces_Record` message. -/
structure GnssPlaceEntry where
  timestamp : Option Timestamp
  place : Option GNSSPlaceRecord
  odometerKm : Int
  deriving Repr, DecidableEq

/-- `unmarshalGNSSAccumulatedDrivingRecord`, internal/card/gnss_places.go:112-148. -/
def unmarshalGnssPlaceEntry (data : Bytes) : Res GnssPlaceEntry := do
  if data.length ≠ 18 then .err "invalid data length for GNSSAccumulatedDrivingRecord"
  let t ← sl? data 0 4
  let ts ← unmarshalTimeReal t
  let g ← sl? data 4 15
  let place ← unmarshalGNSSPlaceRecord g
  let o ← sl? data 15 18
  let odo ← unmarshalOdometer o
  return { timestamp := ts, place := some place, odometerKm := (odo : Int) }

/-- `unmarshalGnssPlaces`, internal/card/gnss_places.go:37-104. Newest index and records. -/
def unmarshalGnssPlaces (data : Bytes) : Res (Int × List GnssPlaceEntry) := do
  if data.length < 2 then .err "invalid data length for GNSSAccumulatedDriving"
  if (data.length - 2) % 18 ≠ 0 then .err "invalid records data length for GNSSAccumulatedDriving"
  let h ← sl? data 0 2
  let r ← from? data 2
  let out := scanAll (splitFixed 18) r
  let rs ← mapRes unmarshalGnssPlaceEntry (out.toks.map Tok.bytes)
  match out.err with
  | some m => .err m
  | none => return ((beNat h : Int), rs)

/-- `appendGNSSAccumulatedDrivingRecord`, internal/card/gnss_places.go:201-227, for a non-nil record. -/
def appendGnssPlaceEntry (dst : Bytes) (r : GnssPlaceEntry) : Res Bytes := do
  let dst ← appendTimeReal dst r.timestamp
  let dst ← appendGNSSPlaceRecord dst r.place
  if r.odometerKm < 0 ∨ r.odometerKm > 999999 then .err "invalid vehicle odometer value"
  return appendOdometer dst (low 32 r.odometerKm)

/-- `appendCardGnssPlaces`, internal/card/gnss_places.go:172-193. -/
def appendGnssPlaces (dst : Bytes) (g : Option (Int × List GnssPlaceEntry)) : Res Bytes :=
  match g with
  | none => .ok dst
  | some (newest, rs) => appendEach appendGnssPlaceEntry (dst ++ beBytes 2 (low 16 newest)) rs

/-- `VehicleUnitsUsed_Record` message. -/
structure VehicleUnitRecord where
  timestamp : Option Timestamp
  manufacturerCode : Int
  deviceId : Bytes
  softwareVersion : Bytes
  deriving Repr, DecidableEq

/-- `unmarshalCardVehicleUnitRecord`, internal/card/vehicle_units_used.go:115-147, on one token. Device id
and software version are sub-slices of `scanner.Bytes()`, so they show the scanner's buffers as they are
when the loop has ended (`heap`). -/
def unmarshalVehicleUnitToken (heap : List Bytes) (t : Tok) : Res VehicleUnitRecord := do
  let data := t.bytes
  if data.length ≠ 10 then .err "invalid data length for CardVehicleUnitRecord"
  let x ← sl? data 0 4
  let ts ← unmarshalTimeReal x
  let m ← at? data 4
  let _ ← sl? data 5 6
  let _ ← sl? data 6 10
  let kept := (deref heap t.ref).getD []
  return { timestamp := ts, manufacturerCode := (m.toNat : Int), deviceId := sl kept 5 6, softwareVersion := sl kept 6 10 }

/-- `unmarshalVehicleUnitsUsed`, internal/card/vehicle_units_used.go:39-106. -/
def unmarshalVehicleUnitsUsed (data : Bytes) : Res (Int × List VehicleUnitRecord) := do
  if data.length < 2 then .err "invalid data length for CardVehicleUnitsUsed"
  if (data.length - 2) % 10 ≠ 0 then .err "invalid records data length for CardVehicleUnitsUsed"
  let h ← sl? data 0 2
  let r ← from? data 2
  let out := scanAll (splitFixed 10) r
  let rs ← mapRes (unmarshalVehicleUnitToken out.heap) out.toks
  match out.err with
  | some m => .err m
  | none => return ((beNat h : Int), rs)

/-- `appendCardVehicleUnitRecord`, internal/card/vehicle_units_used.go:202-247, for a non-nil record. -/
def appendVehicleUnitRecord (dst : Bytes) (r : VehicleUnitRecord) : Res Bytes := do
  let dst ← appendTimeReal dst r.timestamp
  if r.manufacturerCode < 0 ∨ r.manufacturerCode > 255 then .err "invalid manufacturer code"
  let dst := dst ++ [i2b r.manufacturerCode]
  if r.deviceId.length > 1 then .err "device ID too long"
  let dst := dst ++ [r.deviceId.headD 0]
  if r.softwareVersion.length > 4 then .err "VU software version too long"
  return dst ++ (r.softwareVersion ++ zeros (4 - r.softwareVersion.length))

/-- `appendCardVehicleUnitsUsed`, internal/card/vehicle_units_used.go:172-193. -/
def appendVehicleUnitsUsed (dst : Bytes) (v : Option (Int × List VehicleUnitRecord)) : Res Bytes :=
  match v with
  | none => .ok dst
  | some (newest, rs) => appendEach appendVehicleUnitRecord (dst ++ beBytes 2 (low 16 newest)) rs

end Tacho
