import Verif.Model.Anonymize
/-!
# Anonymising an identification, with the objects of the message

As Verif.Model.AnonymizeObjects, for `AnonymizeIdentification`. All the messages that an identification contains are objects,
and the fields that hold them are pointers, possibly nil and possibly equal.

Simplification: raw data are values. A message is written down after the messages it points to; nothing reads it in between.
-/

namespace Tacho

/-- A `ddv1.DriverIdentification` object. -/
structure DriverObj where
  number : Option Nat
  replacement : Option Nat
  renewal : Option Nat

/-- A `ddv1.OwnerIdentification` object. -/
structure OwnerObj where
  owner : Option Nat
  consecutive : Option Nat
  replacement : Option Nat
  renewal : Option Nat

/-- A `cardv1.Identification_Card` object. -/
structure CardObj where
  issuingState : Int
  driver : Option Nat
  owner : Option Nat
  authority : Option Nat
  issueDate : Option Nat
  validityBegin : Option Nat
  expiryDate : Option Nat

/-- A `cardv1.Identification_DriverCardHolder` object. -/
structure DriverHolderObj where
  surname : Option Nat
  firstNames : Option Nat
  birthDate : Option Nat
  language : Option Nat

/-- A `cardv1.Identification_WorkshopCardHolder` or `cardv1.Identification_ControlCardHolder` object: both have five texts
(the two kinds have stores of their own). -/
structure OfficeHolderObj where
  name : Option Nat
  address : Option Nat
  surname : Option Nat
  firstNames : Option Nat
  language : Option Nat

/-- A `cardv1.Identification_CompanyCardHolder` object. -/
structure CompanyHolderObj where
  name : Option Nat
  address : Option Nat
  language : Option Nat

/-- A `cardv1.Identification` object. -/
structure IdentObj where
  cardType : CardType
  card : Option Nat
  driverHolder : Option Nat
  workshopHolder : Option Nat
  controlHolder : Option Nat
  companyHolder : Option Nat
  signature : Option Bytes
  signatureVerified : Option Bool

/-- The objects there are. An object is allocated at `next`. -/
structure IdentObjects where
  next : Nat
  time : Nat → Timestamp
  text : Nat → StringValue
  ia5 : Nat → Ia5StringValue
  date : Nat → Date
  driver : Nat → DriverObj
  owner : Nat → OwnerObj
  card : Nat → CardObj
  driverHolder : Nat → DriverHolderObj
  workshopHolder : Nat → OfficeHolderObj
  controlHolder : Nat → OfficeHolderObj
  companyHolder : Nat → CompanyHolderObj
  ident : Nat → IdentObj

namespace IdentObjects

/-- `&timestamppb.Timestamp{...}`. -/
def newTime (h : IdentObjects) (v : Timestamp) : Nat × IdentObjects :=
  (h.next, { h with next := h.next + 1, time := fun a => if a = h.next then v else h.time a })

/-- `&ddv1.StringValue{}` and its setters. -/
def newText (h : IdentObjects) (v : StringValue) : Nat × IdentObjects :=
  (h.next, { h with next := h.next + 1, text := fun a => if a = h.next then v else h.text a })

/-- `&ddv1.Ia5StringValue{}` and its setters. -/
def newIa5 (h : IdentObjects) (v : Ia5StringValue) : Nat × IdentObjects :=
  (h.next, { h with next := h.next + 1, ia5 := fun a => if a = h.next then v else h.ia5 a })

/-- `&ddv1.Date{}` and its setters. -/
def newDate (h : IdentObjects) (v : Date) : Nat × IdentObjects :=
  (h.next, { h with next := h.next + 1, date := fun a => if a = h.next then v else h.date a })

/-- `&ddv1.DriverIdentification{}` and its setters. -/
def newDriver (h : IdentObjects) (v : DriverObj) : Nat × IdentObjects :=
  (h.next, { h with next := h.next + 1, driver := fun a => if a = h.next then v else h.driver a })

/-- `&ddv1.OwnerIdentification{}` and its setters. -/
def newOwner (h : IdentObjects) (v : OwnerObj) : Nat × IdentObjects :=
  (h.next, { h with next := h.next + 1, owner := fun a => if a = h.next then v else h.owner a })

/-- `&cardv1.Identification_Card{}` and its setters. -/
def newCard (h : IdentObjects) (v : CardObj) : Nat × IdentObjects :=
  (h.next, { h with next := h.next + 1, card := fun a => if a = h.next then v else h.card a })

/-- `&cardv1.Identification_DriverCardHolder{}` and its setters. -/
def newDriverHolder (h : IdentObjects) (v : DriverHolderObj) : Nat × IdentObjects :=
  (h.next, { h with next := h.next + 1, driverHolder := fun a => if a = h.next then v else h.driverHolder a })

/-- `&cardv1.Identification_WorkshopCardHolder{}` and its setters. -/
def newWorkshopHolder (h : IdentObjects) (v : OfficeHolderObj) : Nat × IdentObjects :=
  (h.next, { h with next := h.next + 1, workshopHolder := fun a => if a = h.next then v else h.workshopHolder a })

/-- `&cardv1.Identification_ControlCardHolder{}` and its setters. -/
def newControlHolder (h : IdentObjects) (v : OfficeHolderObj) : Nat × IdentObjects :=
  (h.next, { h with next := h.next + 1, controlHolder := fun a => if a = h.next then v else h.controlHolder a })

/-- `&cardv1.Identification_CompanyCardHolder{}` and its setters. -/
def newCompanyHolder (h : IdentObjects) (v : CompanyHolderObj) : Nat × IdentObjects :=
  (h.next, { h with next := h.next + 1, companyHolder := fun a => if a = h.next then v else h.companyHolder a })

/-- `&cardv1.Identification{}` and its setters. -/
def newIdent (h : IdentObjects) (v : IdentObj) : Nat × IdentObjects :=
  (h.next, { h with next := h.next + 1, ident := fun a => if a = h.next then v else h.ident a })

/-- Setters of the IA5 string at `a`. -/
def setIa5 (h : IdentObjects) (a : Nat) (v : Ia5StringValue) : IdentObjects :=
  { h with ia5 := fun b => if b = a then v else h.ia5 b }

/-- What the getters return through a pointer to a driver identification. -/
def driverAt (h : IdentObjects) (a : Nat) : DriverIdentification := {
  number := (h.driver a).number.map h.ia5, replacement := (h.driver a).replacement.map h.ia5
  renewal := (h.driver a).renewal.map h.ia5 }

/-- What the getters return through a pointer to an owner identification. -/
def ownerAt (h : IdentObjects) (a : Nat) : OwnerIdentification := {
  owner := (h.owner a).owner.map h.ia5, consecutive := (h.owner a).consecutive.map h.ia5
  replacement := (h.owner a).replacement.map h.ia5, renewal := (h.owner a).renewal.map h.ia5 }

/-- What the getters return through a pointer to a card. -/
def cardAt (h : IdentObjects) (a : Nat) : CardIdent := {
  issuingState := (h.card a).issuingState, driver := (h.card a).driver.map h.driverAt, owner := (h.card a).owner.map h.ownerAt
  authority := (h.card a).authority.map h.text, issueDate := (h.card a).issueDate.map h.time
  validityBegin := (h.card a).validityBegin.map h.time, expiryDate := (h.card a).expiryDate.map h.time }

/-- What the getters return through a pointer to the holder of a driver card. -/
def driverHolderAt (h : IdentObjects) (a : Nat) : DriverHolder := {
  surname := (h.driverHolder a).surname.map h.text, firstNames := (h.driverHolder a).firstNames.map h.text
  birthDate := (h.driverHolder a).birthDate.map h.date, language := (h.driverHolder a).language.map h.ia5 }

/-- What the getters return through a pointer to the holder of a workshop card. -/
def workshopHolderAt (h : IdentObjects) (a : Nat) : WorkshopHolder := {
  workshopName := (h.workshopHolder a).name.map h.text, workshopAddress := (h.workshopHolder a).address.map h.text
  surname := (h.workshopHolder a).surname.map h.text, firstNames := (h.workshopHolder a).firstNames.map h.text
  language := (h.workshopHolder a).language.map h.text }

/-- What the getters return through a pointer to the holder of a control card. -/
def controlHolderAt (h : IdentObjects) (a : Nat) : ControlHolder := {
  bodyName := (h.controlHolder a).name.map h.text, bodyAddress := (h.controlHolder a).address.map h.text
  surname := (h.controlHolder a).surname.map h.text, firstNames := (h.controlHolder a).firstNames.map h.text
  language := (h.controlHolder a).language.map h.text }

/-- What the getters return through a pointer to the holder of a company card. -/
def companyHolderAt (h : IdentObjects) (a : Nat) : CompanyHolder := {
  companyName := (h.companyHolder a).name.map h.text, companyAddress := (h.companyHolder a).address.map h.text
  language := (h.companyHolder a).language.map h.text }

/-- What the getters return through a pointer to an identification. -/
def identAt (h : IdentObjects) (a : Nat) : AnyIdentification := {
  cardType := (h.ident a).cardType, card := (h.ident a).card.map h.cardAt
  driverHolder := (h.ident a).driverHolder.map h.driverHolderAt
  workshopHolder := (h.ident a).workshopHolder.map h.workshopHolderAt
  controlHolder := (h.ident a).controlHolder.map h.controlHolderAt
  companyHolder := (h.ident a).companyHolder.map h.companyHolderAt
  signature := (h.ident a).signature, signatureVerified := (h.ident a).signatureVerified }

end IdentObjects

/-- A new text of 35 characters, as in internal/card/identification.go:510-513. -/
def testTextAt (value : String) (h : IdentObjects) : Nat × IdentObjects :=
  h.newText { encoding := encoding_iso88591, rawData := none, length := some 35, value := value.toUTF8.toList }

/-- `AnonymizeDriverIdentification`, internal/dd/driver_identification.go:66-77. -/
def anonymizeDriverAt (d : Option Nat) (h : IdentObjects) : Option Nat × IdentObjects :=
  match d with
  | none => (none, h)
  | some _ =>
    let n := h.newIa5 { rawData := none, length := some 14, value := anonDriverNumber }
    let x := n.2.newDriver { number := some n.1, replacement := none, renewal := none }
    (some x.1, x.2)

/-- The owner part of `AnonymizeIdentification`, internal/card/identification.go:497-507. The indices are the same objects
(lines 503-505). -/
def anonymizeOwnerAt (o : Option Nat) (h : IdentObjects) : Option Nat × IdentObjects :=
  match o with
  | none => (none, h)
  | some o =>
    let n := h.newIa5 { rawData := none, length := some 13, value := "OWNER00000001".toUTF8.toList }
    let x := n.2.newOwner { h.owner o with owner := some n.1 }
    (some x.1, x.2)

/-- The card part of `AnonymizeIdentification`, internal/card/identification.go:485-524. -/
def anonymizeCardAt (c : Option Nat) (h : IdentObjects) : Option Nat × IdentObjects :=
  match c with
  | none => (none, h)
  | some c =>
    let d := anonymizeDriverAt (h.card c).driver h
    let w := anonymizeOwnerAt (d.2.card c).owner d.2
    let a := testTextAt "TEST_AUTHORITY" w.2
    let t1 := a.2.newTime ⟨1577836800, 0⟩
    let t2 := t1.2.newTime ⟨1577836800, 0⟩
    let t3 := t2.2.newTime ⟨1735689599, 0⟩
    let x := t3.2.newCard {
      issuingState := (h.card c).issuingState, driver := d.1, owner := w.1, authority := some a.1
      issueDate := some t1.1, validityBegin := some t2.1, expiryDate := some t3.1 }
    (some x.1, x.2)

/-- The holder of a driver card in `AnonymizeIdentification`, internal/card/identification.go:528-560. The language is the
same object (line 557), as in the other three. -/
def anonymizeDriverHolderAt (p : Option Nat) (h : IdentObjects) : Option Nat × IdentObjects :=
  match p with
  | none => (none, h)
  | some p =>
    let s := testTextAt "TEST_SURNAME" h
    let f := testTextAt "TEST_FIRSTNAME" s.2
    let b := f.2.newDate testBirthDate
    let x := b.2.newDriverHolder {
      surname := some s.1, firstNames := some f.1, birthDate := some b.1, language := (b.2.driverHolder p).language }
    (some x.1, x.2)

/-- The holder of a workshop card in `AnonymizeIdentification`, internal/card/identification.go:562-596. -/
def anonymizeWorkshopHolderAt (p : Option Nat) (h : IdentObjects) : Option Nat × IdentObjects :=
  match p with
  | none => (none, h)
  | some p =>
    let n := testTextAt "TEST_WORKSHOP" h
    let a := testTextAt "TEST_ADDRESS" n.2
    let s := testTextAt "TEST_SURNAME" a.2
    let f := testTextAt "TEST_FIRSTNAME" s.2
    let x := f.2.newWorkshopHolder {
      name := some n.1, address := some a.1, surname := some s.1, firstNames := some f.1
      language := (f.2.workshopHolder p).language }
    (some x.1, x.2)

/-- The holder of a control card in `AnonymizeIdentification`, internal/card/identification.go:598-632. -/
def anonymizeControlHolderAt (p : Option Nat) (h : IdentObjects) : Option Nat × IdentObjects :=
  match p with
  | none => (none, h)
  | some p =>
    let n := testTextAt "TEST_CONTROL_BODY" h
    let a := testTextAt "TEST_ADDRESS" n.2
    let s := testTextAt "TEST_SURNAME" a.2
    let f := testTextAt "TEST_FIRSTNAME" s.2
    let x := f.2.newControlHolder {
      name := some n.1, address := some a.1, surname := some s.1, firstNames := some f.1
      language := (f.2.controlHolder p).language }
    (some x.1, x.2)

/-- The holder of a company card in `AnonymizeIdentification`, internal/card/identification.go:634-655. -/
def anonymizeCompanyHolderAt (p : Option Nat) (h : IdentObjects) : Option Nat × IdentObjects :=
  match p with
  | none => (none, h)
  | some p =>
    let n := testTextAt "TEST_COMPANY" h
    let a := testTextAt "TEST_ADDRESS" n.2
    let x := a.2.newCompanyHolder { name := some n.1, address := some a.1, language := (a.2.companyHolder p).language }
    (some x.1, x.2)

/-- `AnonymizeIdentification`, internal/card/identification.go:477-662, for a message that is not nil. -/
def anonymizeIdentificationAt (i : Nat) (h : IdentObjects) : Nat × IdentObjects :=
  let o := h.ident i
  let c := anonymizeCardAt o.card h
  let result : IdentObj := {
    cardType := o.cardType, card := c.1, driverHolder := none, workshopHolder := none, controlHolder := none
    companyHolder := none, signature := none, signatureVerified := none }
  match o.cardType with
  | .driverCard =>
    let p := anonymizeDriverHolderAt o.driverHolder c.2
    p.2.newIdent { result with driverHolder := p.1 }
  | .workshopCard =>
    let p := anonymizeWorkshopHolderAt o.workshopHolder c.2
    p.2.newIdent { result with workshopHolder := p.1 }
  | .controlCard =>
    let p := anonymizeControlHolderAt o.controlHolder c.2
    p.2.newIdent { result with controlHolder := p.1 }
  | .companyCard =>
    let p := anonymizeCompanyHolderAt o.companyHolder c.2
    p.2.newIdent { result with companyHolder := p.1 }
  | _ => c.2.newIdent result

end Tacho
