import Verif.Model.CardEF
/-!
# Anonymisation of whole files

The record-level functions are next to their records (`Model/Records`, `Model/Prim`); this file has the
functions of internal/card that work on a whole elementary file. Arguments are non-nil, and so are the
records of a list: `nil` gives `nil` in the code. The `signature` fields are part of
`AnyIdentification` only; the other messages lose theirs in the same way (no setter is called).
-/

namespace Tacho

/-! ## EF_Places -/

/-- `anonymizeTimestampsInPlace`, internal/card/places.go:184-204, from index `i` on. -/
def anonymizeTimestamps : Nat → List PlaceRecord → List PlaceRecord
  | _, [] => []
  | i, r :: rs =>
    (if r.entryTime.isSome ∨ i = 0 then { r with entryTime := some ⟨1577836800 + (i : Int) * 3600, 0⟩ } else r)
      :: anonymizeTimestamps (i + 1) rs

/-- The body of the `AppendPlaceRecord` loop of `AnonymizePlaces`, internal/card/places.go:161-166. -/
def regeneratePlace (r : PlaceRecord) : PlaceRecord :=
  match appendPlaceRecord [] r with
  | .ok b => { r with rawData := some b }
  | _ => r

/-- `AnonymizePlaces`, internal/card/places.go:139-179. -/
def anonymizePlaces (p : RecordFile PlaceRecord) : RecordFile PlaceRecord :=
  let records := (anonymizeTimestamps 0 (p.records.map anonymizePlaceRecord)).map regeneratePlace
  let result : RecordFile PlaceRecord := { rawData := none, newest := p.newest, records := records }
  match appendPlaces [] (some result) with
  | .ok b => { result with rawData := some b }
  | _ => result

/-! ## EF_Places, second generation -/

/-- `anonymizeTimestampsInPlaceG2`, internal/card/places_g2.go:186-216, from index `i` on. -/
def anonymizeTimestampsG2 : Nat → List PlaceRecordG2 → List PlaceRecordG2
  | _, [] => []
  | i, r :: rs =>
    let t : Option Timestamp := some ⟨1577836800 + (i : Int) * 3600, 0⟩
    { base := if r.base.entryTime.isSome ∨ i = 0 then { r.base with entryTime := t } else r.base
      gnss := r.gnss.map fun g => if g.timestamp.isSome then { g with timestamp := t } else g }
      :: anonymizeTimestampsG2 (i + 1) rs

/-- The body of the `AppendPlaceRecordG2` loop of `AnonymizePlacesG2`, internal/card/places_g2.go:163-168. -/
def regeneratePlaceG2 (r : PlaceRecordG2) : PlaceRecordG2 :=
  match appendPlaceRecordG2 [] r with
  | .ok b => { r with base := { r.base with rawData := some b } }
  | _ => r

/-- `AnonymizePlacesG2`, internal/card/places_g2.go:141-181. -/
def anonymizePlacesG2 (p : RecordFile PlaceRecordG2) : RecordFile PlaceRecordG2 :=
  let records := (anonymizeTimestampsG2 0 (p.records.map anonymizePlaceRecordG2)).map regeneratePlaceG2
  let result : RecordFile PlaceRecordG2 := { rawData := none, newest := p.newest, records := records }
  match appendPlacesG2 [] (some result) with
  | .ok b => { result with rawData := some b }
  | _ => result

/-! ## EF_Identification of any card -/

/-- `Identification_WorkshopCardHolder` message, identification.proto:136-165. -/
structure WorkshopHolder where
  workshopName : Option StringValue
  workshopAddress : Option StringValue
  surname : Option StringValue
  firstNames : Option StringValue
  language : Option StringValue
  deriving Repr, DecidableEq

/-- `Identification_ControlCardHolder` message, identification.proto:179-208. -/
structure ControlHolder where
  bodyName : Option StringValue
  bodyAddress : Option StringValue
  surname : Option StringValue
  firstNames : Option StringValue
  language : Option StringValue
  deriving Repr, DecidableEq

/-- `Identification_CompanyCardHolder` message, identification.proto:221-240. -/
structure CompanyHolder where
  companyName : Option StringValue
  companyAddress : Option StringValue
  language : Option StringValue
  deriving Repr, DecidableEq

/-- The whole `Identification` message, identification.proto:24-288. The part a parser fills in is
`Identification`. -/
structure AnyIdentification extends Identification where
  workshopHolder : Option WorkshopHolder := none
  controlHolder : Option ControlHolder := none
  companyHolder : Option CompanyHolder := none
  signature : Option Bytes := none
  signatureVerified : Option Bool := none
  deriving Repr, DecidableEq

/-- The `StringValue`s of `AnonymizeIdentification`: ISO 8859-1, 35 bytes, e.g.
internal/card/identification.go:512-516. -/
def testText (value : String) : Option StringValue :=
  some { encoding := encoding_iso88591, rawData := none, length := some 35, value := value.toUTF8.toList }

/-- The birth date of `AnonymizeIdentification`, internal/card/identification.go:547-555. -/
def testBirthDate : Date :=
  let d : Date := { rawData := none, year := 2000, month := 1, day := 1 }
  match appendDate [] d with
  | .ok b => { d with rawData := some b }
  | _ => d

/-- The card part of `AnonymizeIdentification`, internal/card/identification.go:485-527. -/
def anonymizeCardIdent (c : CardIdent) : CardIdent := {
  issuingState := c.issuingState
  driver := anonymizeDriverIdentification c.driver
  owner := c.owner.map fun o => {
    owner := some { rawData := none, length := some 13, value := "OWNER00000001".toUTF8.toList }
    consecutive := o.consecutive, replacement := o.replacement, renewal := o.renewal }
  authority := testText "TEST_AUTHORITY"
  issueDate := some ⟨1577836800, 0⟩
  validityBegin := some ⟨1577836800, 0⟩
  expiryDate := some ⟨1735689599, 0⟩ }

/-- `AnonymizeIdentification`, internal/card/identification.go:477-662. -/
def anonymizeIdentification (i : AnyIdentification) : AnyIdentification :=
  let result : AnyIdentification := {
    cardType := i.cardType, card := i.card.map anonymizeCardIdent, driverHolder := none }
  match i.cardType with
  | .driverCard => { result with driverHolder := i.driverHolder.map fun h => {
      surname := testText "TEST_SURNAME", firstNames := testText "TEST_FIRSTNAME"
      birthDate := some testBirthDate, language := h.language } }
  | .workshopCard => { result with workshopHolder := i.workshopHolder.map fun h => {
      workshopName := testText "TEST_WORKSHOP", workshopAddress := testText "TEST_ADDRESS"
      surname := testText "TEST_SURNAME", firstNames := testText "TEST_FIRSTNAME", language := h.language } }
  | .controlCard => { result with controlHolder := i.controlHolder.map fun h => {
      bodyName := testText "TEST_CONTROL_BODY", bodyAddress := testText "TEST_ADDRESS"
      surname := testText "TEST_SURNAME", firstNames := testText "TEST_FIRSTNAME", language := h.language } }
  | .companyCard => { result with companyHolder := i.companyHolder.map fun h => {
      companyName := testText "TEST_COMPANY", companyAddress := testText "TEST_ADDRESS", language := h.language } }
  | _ => result

end Tacho
