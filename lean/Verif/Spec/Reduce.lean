import Verif.Model.DriverCard
import Verif.Model.File
/-!
# What is left of a value that does not fit

The format has room for unsigned numbers of 8, 16, 24 or 32 bits, for signed ones of 24 bits, for text of a
fixed size, and for the codes the regulation names. These functions cut a message down to what fits: a number
keeps its low bits, a text its first characters, and an event, a type of card or a place with a code nobody
knows takes the code 0 (number 2 in each of the enums). Nothing else is touched. `Props/Reduce.lean` shows
that the library writes a message exactly as it writes the message cut down.
-/

namespace Tacho.Spec

/-- The low `n` bits, as a number without sign. -/
def lowBits (n : Nat) (v : Int) : Int := v % 2 ^ n

/-- The low 24 bits, as a number with sign. -/
def signed24 (v : Int) : Int := (v + 2 ^ 23) % 2 ^ 24 - 2 ^ 23

/-- A time: whole seconds keep 32 bits, and none is left of a multiple of 2^32. (A time with a fraction is
refused and so is left alone.) -/
def cutTime : Option Timestamp → Option Timestamp
  | none => none
  | some t =>
    if t.nanos > 0 then some t
    else if t.seconds % 2 ^ 32 = 0 then none
    else some ⟨t.seconds % 2 ^ 32, 0⟩

/-- A code: itself if the table names it, else the number 2, whose code is 0. -/
def cutCode (t : EnumTable) (v : Int) : Int :=
  if t.any (fun p => p.1 == v && p.2.isSome) then v else 2

/-- What a reader makes of a code byte: the number the table gives it, or UNRECOGNIZED (1) with the byte in the
companion field. -/
def readCode (t : EnumTable) (b : Nat) : Int × Option Int :=
  match t.find? (fun p => p.2 == some b) with
  | some p => (p.1, none)
  | none => (1, some (b : Int))

/-- A code with its companion field. The companion only counts with UNRECOGNIZED; it keeps its low eight bits
and is 0 when it is missing. -/
def cutCoded (t : EnumTable) (v : Int) (u : Option Int) : Int × Option Int :=
  if v = 1 then readCode t (lowBits 8 (u.getD 0)).toNat else (cutCode t v, none)

/-- The same where a code that the table does not name is refused. -/
def cutCodedStrict (t : EnumTable) (v : Int) (u : Option Int) : Int × Option Int :=
  if v = 1 then readCode t (lowBits 8 (u.getD 0)).toNat else (v, none)

/-- The first `n` bytes, filled up with zeros. -/
def cutBytes (n : Nat) (b : Bytes) : Bytes := (b ++ List.replicate n 0).take n

/-- The first character of a text, or the default `d` if there is none. -/
def cutIndex (d : UInt8) (s : Option Ia5StringValue) : Option Ia5StringValue :=
  some ⟨none, some 1, match s with
    | some ⟨_, _, c :: _⟩ => [c]
    | _ => [d]⟩

/-- Geographical coordinates. -/
def cutGeo (g : GeoCoordinates) : GeoCoordinates := ⟨signed24 g.latitude, signed24 g.longitude⟩

/-- A GNSS place; the accuracy is checked, not cut. -/
def cutGnss (r : GNSSPlaceRecord) : GNSSPlaceRecord :=
  { r with timestamp := cutTime r.timestamp, geo := r.geo.map cutGeo }

/-- An authenticated GNSS place: here the accuracy is cut. -/
def cutGnssAuth (r : GNSSPlaceAuthRecord) : GNSSPlaceAuthRecord :=
  { timestamp := cutTime r.timestamp
    accuracy := lowBits 8 r.accuracy
    geo := r.geo.map cutGeo
    authStatus := (cutCodedStrict positionAuthenticationStatusTable r.authStatus r.unrecognizedAuthStatus).1
    unrecognizedAuthStatus := (cutCodedStrict positionAuthenticationStatusTable r.authStatus r.unrecognizedAuthStatus).2 }

/-- A change of activity: the minute keeps eleven bits. -/
def cutChange (c : ActivityChangeInfo) : ActivityChangeInfo :=
  { c with timeOfChangeMinutes := lowBits 11 c.timeOfChangeMinutes }

/-- The activities of a day. -/
def cutDay (r : DailyRecord) : DailyRecord :=
  { r with date := cutTime r.date, dayDistance := lowBits 16 r.dayDistance, changes := r.changes.map cutChange }

/-- The driver activity file. -/
def cutActivity (a : DriverActivityData) : DriverActivityData :=
  { a with oldest := lowBits 16 a.oldest, newest := lowBits 16 a.newest, records := a.records.map cutDay }

/-- A place. The mark is in no byte of the record. -/
def cutPlace (r : PlaceRecord) : PlaceRecord :=
  { r with
    entryTime := cutTime r.entryTime
    entryType := (cutCoded entryTypeDailyWorkPeriodTable r.entryType r.unrecognizedEntryType).1
    unrecognizedEntryType := (cutCoded entryTypeDailyWorkPeriodTable r.entryType r.unrecognizedEntryType).2
    country := (cutCoded nationNumericTable r.country r.unrecognizedCountry).1
    unrecognizedCountry := (cutCoded nationNumericTable r.country r.unrecognizedCountry).2
    region := r.region.take 1
    odometerKm := lowBits 24 r.odometerKm
    valid := false }

/-- A place of the second generation. -/
def cutPlaceG2 (r : PlaceRecordG2) : PlaceRecordG2 := { base := cutPlace r.base, gnss := r.gnss.map cutGnss }

/-- A specific condition. An unknown type is refused. -/
def cutCondition (r : SpecificConditionRecord) : SpecificConditionRecord :=
  { entryTime := cutTime r.entryTime
    type := (cutCodedStrict specificConditionTypeTable r.type r.unrecognizedType).1
    unrecognizedType := (cutCodedStrict specificConditionTypeTable r.type r.unrecognizedType).2 }

/-- A vehicle. -/
def cutVehicle (r : CardVehicleRecord) : CardVehicleRecord :=
  { r with
    odometerBegin := lowBits 24 r.odometerBegin
    odometerEnd := lowBits 24 r.odometerEnd
    firstUse := cutTime r.firstUse
    lastUse := cutTime r.lastUse }

/-- A vehicle of the second generation. -/
def cutVehicleG2 (r : CardVehicleRecordG2) : CardVehicleRecordG2 := { base := cutVehicle r.base, vin := r.vin.take 17 }

/-- An event or a fault. -/
def cutEvent (r : EventRecord) : EventRecord :=
  { r with type := cutCode eventFaultTypeTable r.type, beginTime := cutTime r.beginTime, endTime := cutTime r.endTime }

/-- A file of records behind a pointer to the newest of them. -/
def cutFile {α : Type} (n : Nat) (f : α → α) (v : RecordFile α) : RecordFile α :=
  { v with newest := lowBits n v.newest, records := v.records.map f }

/-- A serial number. -/
def cutSerial (e : ExtendedSerialNumber) : ExtendedSerialNumber :=
  { e with serialNumber := lowBits 32 e.serialNumber, manufacturerCode := lowBits 8 e.manufacturerCode }

/-- EF_ICC. -/
def cutIcc (i : Icc) : Icc :=
  { i with
    serialNumber := i.serialNumber.map cutSerial
    personaliserId := lowBits 8 i.personaliserId
    embedder := i.embedder.map fun e => { e with manufacturerInformation := lowBits 8 e.manufacturerInformation } }

/-- EF_IC: four bytes each. -/
def cutIc (i : Ic) : Ic := ⟨cutBytes 4 i.serialNumber, cutBytes 4 i.manufacturingReferences⟩

/-- EF_Application_Identification. -/
def cutAppId (a : AppId) : AppId :=
  { a with
    typeOfCard := cutCode equipmentTypeTable a.typeOfCard
    driver := a.driver.map fun d =>
      { eventsPerType := lowBits 8 d.eventsPerType, faultsPerType := lowBits 8 d.faultsPerType
        activityLength := lowBits 16 d.activityLength, vehicleRecords := lowBits 16 d.vehicleRecords
        placeRecords := lowBits 8 d.placeRecords } }

/-- EF_Application_Identification of the second generation. -/
def cutAppIdG2 (a : AppIdG2) : AppIdG2 :=
  { a with
    typeOfCard := cutCode equipmentTypeTable a.typeOfCard
    driver := a.driver.map fun d =>
      { eventsPerType := lowBits 8 d.eventsPerType, faultsPerType := lowBits 8 d.faultsPerType
        activityLength := lowBits 16 d.activityLength, vehicleRecords := lowBits 16 d.vehicleRecords
        placeRecords := lowBits 16 d.placeRecords, gnssRecords := lowBits 16 d.gnssRecords
        conditionRecords := lowBits 16 d.conditionRecords, vehicleUnitRecords := lowBits 16 d.vehicleUnitRecords } }

/-- EF_Application_Identification_V2. -/
def cutAppIdV2 (a : AppIdV2) : AppIdV2 :=
  { borderCrossings := lowBits 8 a.borderCrossings, loadUnload := lowBits 8 a.loadUnload
    loadTypes := lowBits 8 a.loadTypes, vuConfigurationLength := lowBits 8 a.vuConfigurationLength }

/-- The number of a driver card: 14 characters and two indices of one character, '0' by default. -/
def cutDriverNumber (d : DriverIdentification) : DriverIdentification :=
  { number := d.number.map fun n => { n with value := n.value.take 14 }
    replacement := cutIndex 0x30 d.replacement
    renewal := cutIndex 0x30 d.renewal }

/-- The number of another card: 13 characters and three indices of one character, NUL by default. -/
def cutOwnerNumber (o : OwnerIdentification) : OwnerIdentification :=
  { owner := o.owner.map fun n => { n with value := n.value.take 13 }
    consecutive := cutIndex 0 o.consecutive
    replacement := cutIndex 0 o.replacement
    renewal := cutIndex 0 o.renewal }

/-- The card part of EF_Identification. An unknown issuing state is refused. -/
def cutCardIdent (c : CardIdent) : CardIdent :=
  { c with
    driver := c.driver.map cutDriverNumber
    owner := c.owner.map cutOwnerNumber
    issueDate := cutTime c.issueDate
    validityBegin := cutTime c.validityBegin
    expiryDate := cutTime c.expiryDate }

/-- EF_Identification. -/
def cutIdentification (i : Identification) : Identification := { i with card := i.card.map cutCardIdent }

/-- EF_Control_Activity_Data. -/
def cutControl (c : ControlActivity) : ControlActivity :=
  { c with controlTime := cutTime c.controlTime, periodBegin := cutTime c.periodBegin, periodEnd := cutTime c.periodEnd }

/-- EF_Current_Usage. -/
def cutUsage (c : CurrentUsage) : CurrentUsage := { c with openTime := cutTime c.openTime }

/-- EF_Card_Download. -/
def cutDownload (c : CardDownload) : CardDownload := ⟨cutTime c.timestamp⟩

/-- An entry of EF_GNSS_Places; the odometer is checked, not cut. -/
def cutGnssEntry (r : GnssPlaceEntry) : GnssPlaceEntry :=
  { r with timestamp := cutTime r.timestamp, place := r.place.map cutGnss }

/-- An entry of EF_Vehicle_Units_Used: short byte strings are filled up with zeros, long ones and a
manufacturer code beyond a byte are refused. -/
def cutUnit (r : VehicleUnitRecord) : VehicleUnitRecord :=
  { r with
    timestamp := cutTime r.timestamp
    deviceId := r.deviceId ++ List.replicate (1 - r.deviceId.length) 0
    softwareVersion := r.softwareVersion ++ List.replicate (4 - r.softwareVersion.length) 0 }

/-- The content of a signed file. -/
def cutSigned {α : Type} (f : α → α) (s : Signed α) : Signed α := { s with data := f s.data }

/-- The first generation application. -/
def cutTachograph (t : Tachograph) : Tachograph :=
  { t with
    applicationIdentification := t.applicationIdentification.map (cutSigned cutAppId)
    identification := t.identification.map (cutSigned cutIdentification)
    eventsData := t.eventsData.map (cutSigned (List.map cutEvent))
    faultsData := t.faultsData.map (cutSigned (List.map cutEvent))
    driverActivityData := t.driverActivityData.map (cutSigned cutActivity)
    vehiclesUsed := t.vehiclesUsed.map (cutSigned (cutFile 16 cutVehicle))
    places := t.places.map (cutSigned (cutFile 8 cutPlace))
    currentUsage := t.currentUsage.map (cutSigned cutUsage)
    controlActivityData := t.controlActivityData.map (cutSigned cutControl)
    specificConditions := t.specificConditions.map (cutSigned (cutFile 16 cutCondition))
    cardDownload := t.cardDownload.map cutDownload }

/-- The second generation application. -/
def cutTachographG2 (t : TachographG2) : TachographG2 :=
  { t with
    applicationIdentification := t.applicationIdentification.map (cutSigned cutAppIdG2)
    vehiclesUsed := t.vehiclesUsed.map (cutSigned (cutFile 16 cutVehicleG2))
    places := t.places.map (cutSigned (cutFile 16 cutPlaceG2))
    specificConditions := t.specificConditions.map (cutSigned (cutFile 16 cutCondition))
    vehicleUnitsUsed := t.vehicleUnitsUsed.map (cutSigned fun v => (lowBits 16 v.1, v.2.map cutUnit))
    gnssPlaces := t.gnssPlaces.map (cutSigned fun v => (lowBits 16 v.1, v.2.map cutGnssEntry))
    applicationIdentificationV2 := t.applicationIdentificationV2.map (cutSigned cutAppIdV2) }

/-- A driver card. -/
def cutCard (c : DriverCard) : DriverCard :=
  { icc := c.icc.map cutIcc
    ic := c.ic.map cutIc
    tachograph := c.tachograph.map cutTachograph
    tachographG2 := c.tachographG2.map cutTachographG2 }

/-- A file. -/
def cutFileMessage (f : File) : File := { f with driverCard := f.driverCard.map cutCard }

end Tacho.Spec
