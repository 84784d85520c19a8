import Verif.Spec.Fields
import Verif.Spec.TextMeaning
/-!
# Messages that can be written, and what reading them back must give

A message here may come from a parser (it then carries `raw_data`), may have been edited after parsing,
or may have been built by hand. These are the conditions under which its values fit the binary format;
"the same message" always means all fields except `raw_data`, which after reading is the input read.
-/

namespace Tacho.Spec

/-- The writer `f` adds the bytes `e` to whatever destination it is given. -/
def WritesBytes (f : Bytes → Res Bytes) (e : Bytes) : Prop := ∀ dst, f dst = .ok (dst ++ e)

/-- A time that a `TimeReal` can hold: none, or a whole second from 1 to 2^32 - 1. -/
def TimeOk (t : Option Timestamp) : Prop := ∀ x, t = some x → 1 ≤ x.seconds ∧ x.seconds < 2 ^ 32 ∧ x.nanos = 0

/-- A number that fits `n` bits without sign. -/
def Fits (n : Nat) (v : Int) : Prop := 0 ≤ v ∧ v < 2 ^ n

/-- A signed number of 24 bits. -/
def Fits24 (v : Int) : Prop := -2 ^ 23 ≤ v ∧ v < 2 ^ 23

/-- An enum number with a protocol byte. -/
def Named (t : EnumTable) (v : Int) : Prop := ∃ b : UInt8, (v, some b.toNat) ∈ t

/-- An enum number with its "unrecognized" companion as a parser would set them. -/
def CodeOk (t : EnumTable) (v : Int) (u : Option Int) : Prop := ∃ b : UInt8, Coded t b v u

/-- Raw data, if present at all, has the size of the record. -/
def RawFits (raw : Option Bytes) (n : Nat) : Prop := ∀ r, raw = some r → r = [] ∨ r.length = n

/-- Text without padding: seven bit characters, neither starting nor ending with a blank. -/
def PlainText (v : Bytes) : Prop :=
  Ascii v ∧ (∀ b t, v = b :: t → ¬ Blank b) ∧ (∀ b t, v = t ++ [b] → ¬ Blank b)

/-- An IA5 string for a field of `w` bytes: either its raw bytes, or text without padding that fits. -/
def Ia5Ok (w : Nat) (s : Ia5StringValue) : Prop :=
  s.length = some (w : Int) ∧
  ((∃ r, s.rawData = some r ∧ r.length = w) ∨ (s.rawData = none ∧ s.value.length ≤ w ∧ WholeText s.value))

/-- What reading back must give for an IA5 string: the raw bytes if there were any and the text they show (whatever
`value` said), the text otherwise. -/
def SameIa5 (s s' : Ia5StringValue) : Prop :=
  s'.length = s.length ∧ (∀ r, s.rawData = some r → s'.rawData = some r ∧ Shows r s'.value) ∧ (s.rawData = none → s'.value = s.value)

variable [Charmap]

/-- A code-paged string for a field of `1 + w` bytes: a named code page and either raw bytes, or plain
text that fits (for code pages whose lower half is ASCII; none for the empty code page). -/
def TextOk (w : Nat) (s : StringValue) : Prop :=
  s.length = some (w : Int) ∧ (∃ p ∈ Spec.codePages, p.2 = s.encoding) ∧
  ((∃ r, s.rawData = some r ∧ r.length = w + 1) ∨
   (s.rawData = none ∧ s.value.length ≤ w ∧ PlainText s.value ∧
    ∀ p ∈ Spec.codePages, p.2 = s.encoding →
      if p.1 = 255 then s.value = [] else ∀ x, Ascii x → Charmap.decode (charmapOf (UInt8.ofNat p.1)) x = x))

/-- What reading back must give: the same code page; the raw bytes behind it if there were any, and the text they
show (whatever `value` said), the text otherwise. -/
def SameText (s s' : StringValue) : Prop :=
  s'.length = s.length ∧ s'.encoding = s.encoding ∧
  (∀ r, s.rawData = some r → ∃ b : UInt8, (b.toNat, s.encoding) ∈ codePages ∧ s'.rawData = some (b :: r.drop 1) ∧
    PageShows b (r.drop 1) s'.value) ∧ (s.rawData = none → s'.value = s.value)

/-! ## Sub-messages -/

/-- The message is present and satisfies `P`. -/
def Has {α : Type} (P : α → Prop) (o : Option α) : Prop := ∃ x, o = some x ∧ P x

/-- Both messages are present and related by `R`. -/
def Both {α : Type} (R : α → α → Prop) (o o' : Option α) : Prop := ∃ x x', o = some x ∧ o' = some x' ∧ R x x'

/-- A date of four, two and two decimal digits. -/
def DateOk (d : Date) : Prop :=
  (∀ r, d.rawData = some r → r.length = 4) ∧ 0 ≤ d.year ∧ d.year < 10000 ∧ 0 ≤ d.month ∧ d.month < 100 ∧ 0 ≤ d.day ∧ d.day < 100

/-- The same date. -/
def SameDate (d d' : Date) : Prop := d'.year = d.year ∧ d'.month = d.month ∧ d'.day = d.day

/-- A month of the years 2000 to 2099, or no date at all (month and year 0). Month 0 of the year 2000 is how "no
date" is stored. -/
def MonthYearOk (d : MonthYear) : Prop :=
  RawFits d.rawData 2 ∧ ((d.month = 0 ∧ d.year = 0) ∨
    (0 ≤ d.month ∧ d.month < 100 ∧ 2000 ≤ d.year ∧ d.year < 2100 ∧ ¬ (d.month = 0 ∧ d.year = 2000)))

/-- The same month. -/
def SameMonthYear (d d' : MonthYear) : Prop := d'.month = d.month ∧ d'.year = d.year

/-- A registration: a nation with a code, and a number of 13 characters, or none (for which blanks in the
default code page 0 are written; they must decode as blanks). -/
def RegOk (v : VehicleRegistration) : Prop :=
  Named nationNumericTable v.nation ∧
  ((v.number = none ∧ ∀ x, Ascii x → Charmap.decode (charmapOf 0) x = x) ∨ Has (TextOk 13) v.number)

/-- The same registration; an absent number reads as an empty text. -/
def SameReg (v v' : VehicleRegistration) : Prop :=
  v'.nation = v.nation ∧ (Both SameText v.number v'.number ∨ (v.number = none ∧ ∃ s', v'.number = some s' ∧ s'.value = []))

/-- A holder name: two texts of 35 characters. -/
def HolderNameOk (h : HolderName) : Prop := Has (TextOk 35) h.surname ∧ Has (TextOk 35) h.firstNames

/-- The same name. -/
def SameHolderName (h h' : HolderName) : Prop := Both SameText h.surname h'.surname ∧ Both SameText h.firstNames h'.firstNames

/-- A driver identification: 14 characters. -/
def DriverIdOk (d : DriverIdentification) : Prop := Has (Ia5Ok 14) d.number

/-- The same driver number. -/
def SameDriverId (d d' : DriverIdentification) : Prop := Both SameIa5 d.number d'.number

/-- An owner identification: 13, 1, 1 and 1 characters. -/
def OwnerIdOk (o : OwnerIdentification) : Prop :=
  Has (Ia5Ok 13) o.owner ∧ Has (Ia5Ok 1) o.consecutive ∧ Has (Ia5Ok 1) o.replacement ∧ Has (Ia5Ok 1) o.renewal

/-- The same owner. -/
def SameOwnerId (o o' : OwnerIdentification) : Prop :=
  Both SameIa5 o.owner o'.owner ∧ Both SameIa5 o.consecutive o'.consecutive ∧ Both SameIa5 o.replacement o'.replacement ∧
  Both SameIa5 o.renewal o'.renewal

/-- A card number: a driver card with a driver identification, or a workshop or company card with an owner
identification. -/
def CardNumberOk (c : FullCardNumber) : Prop :=
  Fits 8 c.issuingState ∧
  ((c.cardType = equipmentType_driverCard ∧ Has DriverIdOk c.driver ∧ c.owner = none) ∨
   ((c.cardType = equipmentType_workshopCard ∨ c.cardType = equipmentType_companyCard) ∧ c.driver = none ∧ Has OwnerIdOk c.owner))

/-- The same card number. -/
def SameCardNumber (c c' : FullCardNumber) : Prop :=
  c'.cardType = c.cardType ∧ c'.issuingState = c.issuingState ∧
  ((Both SameDriverId c.driver c'.driver ∧ c.owner = none ∧ c'.owner = none) ∨
   (c.driver = none ∧ c'.driver = none ∧ Both SameOwnerId c.owner c'.owner))

/-- A card number with a generation. -/
def CardNumberGenOk (c : FullCardNumberAndGeneration) : Prop := Has CardNumberOk c.number ∧ Named generationTable c.generation

/-- The same card number and generation. -/
def SameCardNumberGen (c c' : FullCardNumberAndGeneration) : Prop :=
  Both SameCardNumber c.number c'.number ∧ c'.generation = c.generation

/-- An extended serial number. -/
def SerialOk (e : ExtendedSerialNumber) : Prop :=
  Fits 32 e.serialNumber ∧ Has MonthYearOk e.monthYear ∧ Named equipmentTypeTable e.type ∧ Fits 8 e.manufacturerCode

/-- The same serial number. -/
def SameSerial (e e' : ExtendedSerialNumber) : Prop :=
  e'.serialNumber = e.serialNumber ∧ Both SameMonthYear e.monthYear e'.monthYear ∧ e'.type = e.type ∧
  e'.manufacturerCode = e.manufacturerCode

/-- Coordinates of 24 bits. -/
def GeoOk (g : GeoCoordinates) : Prop := Fits24 g.latitude ∧ Fits24 g.longitude

/-- A position: time, accuracy of one byte, coordinates. -/
def GnssOk (g : GNSSPlaceRecord) : Prop := TimeOk g.timestamp ∧ Fits 8 g.accuracy ∧ Has GeoOk g.geo

/-- A position with authentication status. -/
def GnssAuthOk (g : GNSSPlaceAuthRecord) : Prop :=
  TimeOk g.timestamp ∧ Fits 8 g.accuracy ∧ Has GeoOk g.geo ∧
  CodeOk positionAuthenticationStatusTable g.authStatus g.unrecognizedAuthStatus

/-! ## Records -/

/-- The values of a place record fit the format. -/
def PlaceOk (m : PlaceRecord) : Prop :=
  TimeOk m.entryTime ∧ CodeOk entryTypeDailyWorkPeriodTable m.entryType m.unrecognizedEntryType ∧
  CodeOk nationNumericTable m.country m.unrecognizedCountry ∧ m.region.length = 1 ∧ Fits 24 m.odometerKm

/-- A condition record. -/
def ConditionOk (m : SpecificConditionRecord) : Prop :=
  TimeOk m.entryTime ∧ CodeOk specificConditionTypeTable m.type m.unrecognizedType

/-- A vehicle record, apart from its raw data. The counter has four decimal digits. -/
def CardVehicleOk (m : CardVehicleRecord) : Prop :=
  Fits 24 m.odometerBegin ∧ Fits 24 m.odometerEnd ∧ TimeOk m.firstUse ∧ TimeOk m.lastUse ∧ Has RegOk m.registration ∧
  Has (fun c => c.length = 2 ∧ 0 ≤ c.value ∧ c.value < 10000) m.counter

/-- The same vehicle record. -/
def SameCardVehicle (m m' : CardVehicleRecord) : Prop :=
  m'.odometerBegin = m.odometerBegin ∧ m'.odometerEnd = m.odometerEnd ∧ m'.firstUse = m.firstUse ∧ m'.lastUse = m.lastUse ∧
  Both SameReg m.registration m'.registration ∧ m'.counter = m.counter

/-- A VIN of at most 17 characters that does not end in NUL or space. -/
def VinOk (v : Bytes) : Prop := v.length ≤ 17 ∧ ∀ b t, v = t ++ [b] → b ≠ 0 ∧ b ≠ 0x20

/-- The vehicle used before. -/
def PreviousVehicleOk (m : PreviousVehicleInfo) : Prop := Has RegOk m.registration ∧ TimeOk m.withdrawalTime

/-- The same previous vehicle. -/
def SamePreviousVehicle (m m' : PreviousVehicleInfo) : Prop :=
  Both SameReg m.registration m'.registration ∧ m'.withdrawalTime = m.withdrawalTime

/-- A card insertion and withdrawal record, apart from its raw data. -/
def CardIWOk (m : VuCardIWRecord) : Prop :=
  Has HolderNameOk m.holderName ∧ Has CardNumberOk m.fullCardNumber ∧ Has DateOk m.expiryDate ∧ TimeOk m.insertionTime ∧
  Fits 24 m.odometerAtInsertion ∧ Named cardSlotNumberTable m.slot ∧ TimeOk m.withdrawalTime ∧ Fits 24 m.odometerAtWithdrawal ∧
  Has (fun p => RawFits p.rawData 19 ∧ PreviousVehicleOk p) m.previousVehicle

/-- The same card insertion and withdrawal record. -/
def SameCardIW (m m' : VuCardIWRecord) : Prop :=
  Both SameHolderName m.holderName m'.holderName ∧ Both SameCardNumber m.fullCardNumber m'.fullCardNumber ∧
  Both SameDate m.expiryDate m'.expiryDate ∧ m'.insertionTime = m.insertionTime ∧ m'.odometerAtInsertion = m.odometerAtInsertion ∧
  m'.slot = m.slot ∧ m'.withdrawalTime = m.withdrawalTime ∧ m'.odometerAtWithdrawal = m.odometerAtWithdrawal ∧
  Both SamePreviousVehicle m.previousVehicle m'.previousVehicle ∧ m'.manualInput = m.manualInput

end Tacho.Spec
