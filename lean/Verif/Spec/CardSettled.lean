import Verif.Spec.CardAgain
import Verif.Spec.Reduce
/-!
# What is left of a parsed driver card once it has been written

Writing a parsed card changes only what the format has no room for: a byte that is no code page, digits beyond nine, and
a card number that no longer fits its field because stray bytes in it were shown as U+FFFD. `settledCard` is the card
after that.
-/

namespace Tacho.Spec

/-- A text with an unrecognised code page is written with the code page 255, under which nothing is shown. -/
def settledText (s : StringValue) : StringValue := if s.encoding = 1 then { s with encoding := 3, value := [] } else s

/-- The same in a registration. -/
def settledReg (v : VehicleRegistration) : VehicleRegistration := { v with number := v.number.map settledText }

/-- A version: the hexadecimal tens digit keeps one digit. -/
def settledVersion (v : CardStructureVersion) : CardStructureVersion := { v with major := v.major % 160, minor := v.minor % 160 }

/-- A date: four, two and two digits. -/
def settledDate (d : Date) : Date := { d with year := d.year % 10000, month := d.month % 100, day := d.day % 100 }

/-- A card number, where `num w v` is what is shown for the first `w` bytes of `v`. -/
def settledCardNumber (num : Nat → Bytes → Bytes) (c : CardIdent) : CardIdent :=
  { c with
    driver := c.driver.map fun d => { d with number := d.number.map fun s => { s with value := num 14 s.value } }
    owner := c.owner.map fun o => { o with owner := o.owner.map fun s => { s with value := num 13 s.value } } }

/-- The same in EF_Identification. -/
def settledNumber (num : Nat → Bytes → Bytes) (i : Identification) : Identification :=
  { i with card := i.card.map (settledCardNumber num) }

/-- EF_Identification: the authority, the names and the birth date. -/
def settledIdentification (i : Identification) : Identification :=
  { i with
    card := i.card.map fun c => { c with authority := c.authority.map settledText }
    driverHolder := i.driverHolder.map fun h =>
      { h with
        surname := h.surname.map settledText
        firstNames := h.firstNames.map settledText
        birthDate := h.birthDate.map settledDate } }

/-- EF_Application_Identification. -/
def settledAppId (m : AppId) : AppId := { m with structureVersion := m.structureVersion.map settledVersion }

/-- EF_Application_Identification of the second generation. -/
def settledAppIdG2 (m : AppIdG2) : AppIdG2 := { m with structureVersion := m.structureVersion.map settledVersion }

/-- EF_Driving_Licence_Info. -/
def settledLicence (m : DrivingLicenceInfo) : DrivingLicenceInfo := { m with authority := m.authority.map settledText }

/-- A record of EF_Events_Data or EF_Faults_Data. -/
def settledEvent (r : EventRecord) : EventRecord := { r with registration := r.registration.map settledReg }

/-- A record of EF_Vehicles_Used. -/
def settledVehicle (r : CardVehicleRecord) : CardVehicleRecord := { r with registration := r.registration.map settledReg }

/-- A record of EF_Vehicles_Used of the second generation. -/
def settledVehicleG2 (r : CardVehicleRecordG2) : CardVehicleRecordG2 := { r with base := settledVehicle r.base }

/-- EF_Current_Usage. -/
def settledUsage (m : CurrentUsage) : CurrentUsage := { m with vehicle := m.vehicle.map settledReg }

/-- EF_Control_Activity_Data. -/
def settledControl (m : ControlActivity) : ControlActivity := { m with registration := m.registration.map settledReg }

/-- The first generation application. -/
def settledGen1 (t : Tachograph) : Tachograph :=
  { t with
    applicationIdentification := t.applicationIdentification.map (cutSigned settledAppId)
    identification := t.identification.map (cutSigned settledIdentification)
    drivingLicenceInfo := t.drivingLicenceInfo.map (cutSigned settledLicence)
    eventsData := t.eventsData.map (cutSigned (List.map settledEvent))
    faultsData := t.faultsData.map (cutSigned (List.map settledEvent))
    vehiclesUsed := t.vehiclesUsed.map (cutSigned fun m => { m with records := m.records.map settledVehicle })
    currentUsage := t.currentUsage.map (cutSigned settledUsage)
    controlActivityData := t.controlActivityData.map (cutSigned settledControl) }

/-- The second generation application. -/
def settledGen2 (t : TachographG2) : TachographG2 :=
  { t with
    applicationIdentification := t.applicationIdentification.map (cutSigned settledAppIdG2)
    vehiclesUsed := t.vehiclesUsed.map (cutSigned fun m => { m with records := m.records.map settledVehicleG2 }) }

/-- The card, but for its number. -/
def settledButNumber (c : DriverCard) : DriverCard :=
  { c with tachograph := c.tachograph.map settledGen1, tachographG2 := c.tachographG2.map settledGen2 }

/-- The card with the content of EF_Identification changed. -/
def onIdentification (f : Identification → Identification) (c : DriverCard) : DriverCard :=
  { c with tachograph := c.tachograph.map fun t => { t with identification := t.identification.map (cutSigned f) } }

/-- The card after it was written. -/
def settledCard (num : Nat → Bytes → Bytes) (c : DriverCard) : DriverCard := onIdentification (settledNumber num) (settledButNumber c)

/-- `num w v` is what is shown for the first `w` bytes of `v`. -/
def ShowsCut (num : Nat → Bytes → Bytes) : Prop := ∀ w v, Shows (v.take w) (num w v)

end Tacho.Spec
