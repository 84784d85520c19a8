import Verif.Spec.CardReread
import Verif.Spec.WriteRead
import Verif.Model.File
/-!
# The values a parsed file can hold

For every message that parsing fills, the set in which each of its numbers, times and enum numbers lies. A reader of
the messages (a database column, a switch over an enum, a conversion to another date type) relies on these. Fields of
type `bool`, `bytes` and `string` are left out, except for the size noted beside a text. `EventRecord` stands for both
events and faults.

`Fits n v` is `0 ≤ v < 2 ^ n`; `Named t v` says that the enum number `v` is declared with a byte of the regulation;
`TimeOk t` that `t` is absent or a whole second from 1 to 2^32 - 1.
-/

namespace Tacho.Spec

/-- A declared enum number: one with a byte of the regulation, or "unrecognized" (number 1). Never "unspecified". -/
def NamedOr1 (t : EnumTable) (v : Int) : Prop := v = 1 ∨ Named t v

/-- The same with a companion field: the byte is kept there exactly if it has no name. -/
def NamedOrKept (t : EnumTable) (v : Int) (kept : Option Int) : Prop :=
  (Named t v ∧ kept = none) ∨ (v = 1 ∧ ∃ n, kept = some n ∧ Fits 8 n)

/-- `v` lies between `lo` and `hi`, both included. -/
def Between (lo hi v : Int) : Prop := lo ≤ v ∧ v ≤ hi

/-- All records of a list. -/
def Every {α : Type} (P : α → Prop) (l : List α) : Prop := ∀ x ∈ l, P x

/-- A text with code page read from a field of `n` bytes and one code page byte. -/
structure TextRange (n : Int) (s : StringValue) : Prop where
  encoding : NamedOr1 encodingTable s.encoding
  length : s.length = some n

/-- A text of seven bit characters read from a field of `n` bytes. -/
def Ia5Range (n : Int) (s : Ia5StringValue) : Prop := s.length = some n

/-- Two BCD bytes: up to four digits. -/
structure CounterRange (c : BcdString) : Prop where
  value : Between 0 9999 c.value
  length : c.length = 2

/-- Two half bytes each, which need not be decimal digits. -/
structure VersionRange (v : CardStructureVersion) : Prop where
  major : Between 0 165 v.major
  minor : Between 0 165 v.minor

/-- Two half bytes for month and day, four for the year, which need not be decimal digits. -/
structure DateRange (d : Date) : Prop where
  year : Between 0 16665 d.year
  month : Between 0 165 d.month
  day : Between 0 165 d.day

/-- Two digits each; a month and year that cannot be read is zero. -/
structure MonthYearRange (m : MonthYear) : Prop where
  month : Between 0 99 m.month
  year : m.year = 0 ∨ Between 2000 2099 m.year
  both : m.year = 0 → m.month = 0

structure GeoRange (g : GeoCoordinates) : Prop where
  latitude : Fits24 g.latitude
  longitude : Fits24 g.longitude

structure ChangeRange (c : ActivityChangeInfo) : Prop where
  slot : Named cardSlotNumberTable c.slot
  activity : Named driverActivityValueTable c.activity
  time : Between 0 2047 c.timeOfChangeMinutes

structure RegRange (r : VehicleRegistration) : Prop where
  nation : NamedOr1 nationNumericTable r.nation
  number : Each (TextRange 13) r.number

structure NameRange (h : HolderName) : Prop where
  surname : Each (TextRange 35) h.surname
  firstNames : Each (TextRange 35) h.firstNames

structure DriverIdRange (d : DriverIdentification) : Prop where
  number : Each (Ia5Range 14) d.number
  replacement : Each (Ia5Range 1) d.replacement
  renewal : Each (Ia5Range 1) d.renewal

structure OwnerIdRange (o : OwnerIdentification) : Prop where
  owner : Each (Ia5Range 13) o.owner
  consecutive : Each (Ia5Range 1) o.consecutive
  replacement : Each (Ia5Range 1) o.replacement
  renewal : Each (Ia5Range 1) o.renewal

/-- The card type is one of three, and says which of the two identifications is set. The issuing state is the byte
itself, whether or not the enum has that number. -/
structure CardNumberRange (c : FullCardNumber) : Prop where
  cardType : c.cardType = equipmentType_driverCard ∨ c.cardType = equipmentType_workshopCard ∨
    c.cardType = equipmentType_companyCard
  issuingState : Fits 8 c.issuingState
  which : (c.driver.isSome ↔ c.cardType = equipmentType_driverCard) ∧ (c.owner.isSome ↔ ¬ c.cardType = equipmentType_driverCard)
  driver : Each DriverIdRange c.driver
  owner : Each OwnerIdRange c.owner

structure SerialRange (s : ExtendedSerialNumber) : Prop where
  serialNumber : Fits 32 s.serialNumber
  monthYear : Each MonthYearRange s.monthYear
  type : Named equipmentTypeTable s.type
  manufacturerCode : Fits 8 s.manufacturerCode

structure GnssRange (g : GNSSPlaceRecord) : Prop where
  timestamp : TimeOk g.timestamp
  accuracy : Fits 8 g.accuracy
  geo : Each GeoRange g.geo

/-- A place. -/
structure PlaceRange (r : PlaceRecord) : Prop where
  entryTime : TimeOk r.entryTime
  entryType : NamedOrKept entryTypeDailyWorkPeriodTable r.entryType r.unrecognizedEntryType
  country : NamedOrKept nationNumericTable r.country r.unrecognizedCountry
  odometerKm : Fits 24 r.odometerKm

structure PlaceG2Range (r : PlaceRecordG2) : Prop where
  base : PlaceRange r.base
  gnss : Each GnssRange r.gnss

structure ConditionRange (r : SpecificConditionRecord) : Prop where
  entryTime : TimeOk r.entryTime
  type : NamedOrKept specificConditionTypeTable r.type r.unrecognizedType

structure VehicleRange (r : CardVehicleRecord) : Prop where
  odometerBegin : Fits 24 r.odometerBegin
  odometerEnd : Fits 24 r.odometerEnd
  firstUse : TimeOk r.firstUse
  lastUse : TimeOk r.lastUse
  registration : Each RegRange r.registration
  counter : Each CounterRange r.counter

structure PreviousVehicleRange (p : PreviousVehicleInfo) : Prop where
  registration : Each RegRange p.registration
  withdrawalTime : TimeOk p.withdrawalTime

structure IWRange (r : VuCardIWRecord) : Prop where
  holderName : Each NameRange r.holderName
  fullCardNumber : Each CardNumberRange r.fullCardNumber
  expiryDate : Each DateRange r.expiryDate
  insertionTime : TimeOk r.insertionTime
  odometerAtInsertion : Fits 24 r.odometerAtInsertion
  slot : Named cardSlotNumberTable r.slot
  withdrawalTime : TimeOk r.withdrawalTime
  odometerAtWithdrawal : Fits 24 r.odometerAtWithdrawal
  previousVehicle : Each PreviousVehicleRange r.previousVehicle

/-! ## Files of a card -/

structure EmbedderRange (e : EmbedderId) : Prop where
  countryCode : Each (Ia5Range 2) e.countryCode
  moduleEmbedder : Each (Ia5Range 2) e.moduleEmbedder
  manufacturerInformation : Fits 8 e.manufacturerInformation

structure IccRange (i : Icc) : Prop where
  clockStop : Named clockStopModeTable i.clockStop
  serialNumber : Each SerialRange i.serialNumber
  approvalNumber : Each (Ia5Range 8) i.approvalNumber
  personaliserId : Fits 8 i.personaliserId
  embedder : Each EmbedderRange i.embedder

structure CountsRange (c : DriverCounts) : Prop where
  eventsPerType : Fits 8 c.eventsPerType
  faultsPerType : Fits 8 c.faultsPerType
  activityLength : Fits 16 c.activityLength
  vehicleRecords : Fits 16 c.vehicleRecords
  placeRecords : Fits 8 c.placeRecords

structure AppIdRange (a : AppId) : Prop where
  typeOfCard : Named equipmentTypeTable a.typeOfCard
  structureVersion : Each VersionRange a.structureVersion
  driver : Each CountsRange a.driver

structure CountsG2Range (c : DriverCountsG2) : Prop where
  eventsPerType : Fits 8 c.eventsPerType
  faultsPerType : Fits 8 c.faultsPerType
  activityLength : Fits 16 c.activityLength
  vehicleRecords : Fits 16 c.vehicleRecords
  placeRecords : Fits 16 c.placeRecords
  gnssRecords : Fits 16 c.gnssRecords
  conditionRecords : Fits 16 c.conditionRecords
  vehicleUnitRecords : Fits 16 c.vehicleUnitRecords

structure AppIdG2Range (a : AppIdG2) : Prop where
  typeOfCard : Named equipmentTypeTable a.typeOfCard
  structureVersion : Each VersionRange a.structureVersion
  driver : Each CountsG2Range a.driver

structure AppIdV2Range (a : AppIdV2) : Prop where
  borderCrossings : Fits 8 a.borderCrossings
  loadUnload : Fits 8 a.loadUnload
  loadTypes : Fits 8 a.loadTypes
  vuConfigurationLength : Fits 8 a.vuConfigurationLength

structure UsageRange (c : CurrentUsage) : Prop where
  openTime : TimeOk c.openTime
  vehicle : Each RegRange c.vehicle

structure LicenceRange (d : DrivingLicenceInfo) : Prop where
  authority : Each (TextRange 35) d.authority
  nation : NamedOr1 nationNumericTable d.nation
  number : Each (Ia5Range 16) d.number

/-- The last control. Its card number is always presented as that of a first generation driver card of no state,
whatever the card says, with all 18 bytes as the driver's number. -/
structure ControlRange (c : ControlActivity) : Prop where
  controlTime : TimeOk c.controlTime
  cardNumber : Each (fun n => n.generation = 1 ∧ Each (fun m => m.cardType = equipmentType_driverCard ∧ m.issuingState = 0 ∧
    Each (fun d => Each (Ia5Range 18) d.number ∧ d.replacement = none ∧ d.renewal = none) m.driver ∧ m.owner = none) n.number) c.cardNumber
  registration : Each RegRange c.registration
  periodBegin : TimeOk c.periodBegin
  periodEnd : TimeOk c.periodEnd

/-- The card is taken to be a driver card or a workshop card, and the identification is of that kind. -/
structure IdentRange (i : Identification) : Prop where
  cardType : i.cardType = .driverCard ∨ i.cardType = .workshopCard
  card : Each (fun c => NamedOr1 nationNumericTable c.issuingState ∧ Each DriverIdRange c.driver ∧ Each OwnerIdRange c.owner ∧
    (c.driver.isSome ↔ i.cardType = .driverCard) ∧ (c.owner.isSome ↔ i.cardType = .workshopCard) ∧
    Each (TextRange 35) c.authority ∧ TimeOk c.issueDate ∧ TimeOk c.validityBegin ∧ TimeOk c.expiryDate) i.card
  holder : Each (fun h => Each (TextRange 35) h.surname ∧ Each (TextRange 35) h.firstNames ∧ Each DateRange h.birthDate ∧
    Each (Ia5Range 2) h.language) i.driverHolder

/-- A record without begin time has no type; any other has a named one. -/
structure EventRange (r : EventRecord) : Prop where
  type : (r.valid = true ∧ Named eventFaultTypeTable r.type) ∨ (r.valid = false ∧ r.type = 0)
  beginTime : TimeOk r.beginTime
  endTime : TimeOk r.endTime
  registration : Each RegRange r.registration

/-- A list of records with a pointer of `bits` bits; a file without pointer has zero there, a number of no bits. -/
structure FileRange {α : Type} (bits : Nat) (P : α → Prop) (f : RecordFile α) : Prop where
  newest : Fits bits f.newest
  records : Every P f.records

structure GnssEntryRange (e : GnssPlaceEntry) : Prop where
  timestamp : TimeOk e.timestamp
  place : Each GnssRange e.place
  odometerKm : Fits 24 e.odometerKm

structure VehicleUnitRange (r : VehicleUnitRecord) : Prop where
  timestamp : TimeOk r.timestamp
  manufacturerCode : Fits 8 r.manufacturerCode

structure DayRange (r : DailyRecord) : Prop where
  prevLength : Fits 16 r.prevLength
  recordLength : Fits 16 r.recordLength
  date : TimeOk r.date
  presenceCounter : Each CounterRange r.presenceCounter
  dayDistance : Fits 16 r.dayDistance
  changes : Every ChangeRange r.changes

structure ActivityRange (a : DriverActivityData) : Prop where
  oldest : Fits 16 a.oldest
  newest : Fits 16 a.newest
  records : Every DayRange a.records

/-- Parsing sets none of the times of a first generation certificate; verification does. -/
def RsaRange (c : RsaCert) : Prop := c.endOfValidity = none ∧ c.valid = false

/-- A time in a certificate: also the epoch itself. -/
def CertTime (t : Option Timestamp) : Prop := ∃ x, t = some x ∧ Fits 32 x.seconds ∧ x.nanos = 0

structure EccRange (c : EccCert) : Prop where
  profile : Fits 8 c.profile
  effective : CertTime c.effective
  expiration : CertTime c.expiration
  valid : c.valid = false

structure TachographRange (t : Tachograph) : Prop where
  applicationIdentification : EachData AppIdRange t.applicationIdentification
  identification : EachData IdentRange t.identification
  drivingLicenceInfo : EachData LicenceRange t.drivingLicenceInfo
  eventsData : EachData (Every EventRange) t.eventsData
  faultsData : EachData (Every EventRange) t.faultsData
  driverActivityData : EachData ActivityRange t.driverActivityData
  vehiclesUsed : EachData (FileRange 16 VehicleRange) t.vehiclesUsed
  places : EachData (FileRange 8 PlaceRange) t.places
  currentUsage : EachData UsageRange t.currentUsage
  controlActivityData : EachData ControlRange t.controlActivityData
  specificConditions : EachData (FileRange 0 ConditionRange) t.specificConditions
  cardDownload : Each (fun d => TimeOk d.timestamp) t.cardDownload
  cardCertificate : Each RsaRange t.cardCertificate
  caCertificate : Each RsaRange t.caCertificate

structure TachographG2Range (t : TachographG2) : Prop where
  applicationIdentification : EachData AppIdG2Range t.applicationIdentification
  identification : EachData IdentRange t.identification
  drivingLicenceInfo : EachData LicenceRange t.drivingLicenceInfo
  eventsData : EachData (Every EventRange) t.eventsData
  faultsData : EachData (Every EventRange) t.faultsData
  driverActivityData : EachData ActivityRange t.driverActivityData
  vehiclesUsed : EachData (FileRange 16 (fun r => VehicleRange r.base)) t.vehiclesUsed
  places : EachData (FileRange 16 PlaceG2Range) t.places
  currentUsage : EachData UsageRange t.currentUsage
  controlActivityData : EachData ControlRange t.controlActivityData
  specificConditions : EachData (FileRange 16 ConditionRange) t.specificConditions
  cardDownload : Each (fun d => TimeOk d.timestamp) t.cardDownload
  vehicleUnitsUsed : EachData (fun m => Fits 16 m.1 ∧ Every VehicleUnitRange m.2) t.vehicleUnitsUsed
  gnssPlaces : EachData (fun m => Fits 16 m.1 ∧ Every GnssEntryRange m.2) t.gnssPlaces
  applicationIdentificationV2 : EachData AppIdV2Range t.applicationIdentificationV2
  cardMaCertificate : Each EccRange t.cardMaCertificate
  cardSignCertificate : Each EccRange t.cardSignCertificate
  caCertificate : Each EccRange t.caCertificate
  linkCertificate : Each EccRange t.linkCertificate

structure CardRange (c : DriverCard) : Prop where
  icc : Each IccRange c.icc
  tachograph : Each TachographRange c.tachograph
  tachographG2 : Each TachographG2Range c.tachographG2

/-! ## Transfers of a vehicle unit -/

structure LockRange (l : CompanyLock) : Prop where
  lockInTime : TimeOk l.lockInTime
  lockOutTime : TimeOk l.lockOutTime
  companyName : Each (TextRange 35) l.companyName
  companyAddress : Each (TextRange 35) l.companyAddress
  companyCardNumber : Each CardNumberRange l.companyCardNumber

structure VuControlRange (c : VuControlActivity) : Prop where
  controlTime : TimeOk c.controlTime
  controlCardNumber : Each CardNumberRange c.controlCardNumber
  beginTime : TimeOk c.downloadPeriodBeginTime
  endTime : TimeOk c.downloadPeriodEndTime

structure DownloadRange (a : DownloadActivity) : Prop where
  downloadingTime : TimeOk a.downloadingTime
  fullCardNumber : Each CardNumberRange a.fullCardNumber
  companyOrWorkshopName : Each (TextRange 35) a.companyOrWorkshopName

/-- The two slots are half bytes, whether or not the enum has that number. There is one download activity. -/
structure OverviewRange (o : OverviewGen1) : Prop where
  vin : Each (Ia5Range 17) o.vin
  registration : Each RegRange o.registration
  currentDateTime : TimeOk o.currentDateTime
  period : Each (fun p => TimeOk p.minTime ∧ TimeOk p.maxTime) o.downloadablePeriod
  driverSlotCard : Fits 4 o.driverSlotCard
  coDriverSlotCard : Fits 4 o.coDriverSlotCard
  downloadActivities : o.downloadActivities.length = 1 ∧ Every DownloadRange o.downloadActivities
  companyLocks : o.companyLocks.length < 256 ∧ Every LockRange o.companyLocks
  controlActivities : o.controlActivities.length < 256 ∧ Every VuControlRange o.controlActivities

structure VuPlaceRange (r : VuPlaceRecord) : Prop where
  entryTime : TimeOk r.entryTime
  entryType : Named entryTypeDailyWorkPeriodTable r.entryType
  country : Named nationNumericTable r.country
  odometerKm : Fits 24 r.odometerKm

structure ActivitiesRange (a : ActivitiesGen1) : Prop where
  dateOfDay : TimeOk a.dateOfDay
  odometerMidnightKm : Fits 24 a.odometerMidnightKm
  cardIWData : a.cardIWData.length < 65536 ∧ Every IWRange a.cardIWData
  activityChanges : a.activityChanges.length < 65536 ∧ Every ChangeRange a.activityChanges
  places : a.places.length < 256 ∧ Every VuPlaceRange a.places
  specificConditions : a.specificConditions.length < 65536 ∧ Every ConditionRange a.specificConditions

/-- The second generation transfers are kept as bytes and hold no values. -/
structure VuRange (v : VuGen1) : Prop where
  overview : Each OverviewRange v.overview
  activities : Every ActivitiesRange v.activities

/-- A parsed file. -/
structure FileInRange (f : File) : Prop where
  vehicleUnit : Each (fun v => Each VuRange v.gen1) f.vehicleUnit
  driverCard : Each CardRange f.driverCard

end Tacho.Spec
